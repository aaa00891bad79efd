import Verif.Model.Path
import Verif.Spec.Path
import Mathlib.Data.List.Basic
import Mathlib.Data.List.TakeWhile
/-
`path.Clean` computes the resolved path.
-/
set_option autoImplicit false

namespace Verif.Lemmas
open Verif.Model Verif.Spec

abbrev dots : List Char := ['.', '.']

/-- The reversed text of segments, the last one first. -/
def revName (rooted : Bool) : List (List Char) → List Char
  | [] => if rooted then ['/'] else []
  | [s] => s.reverse ++ if rooted then ['/'] else []
  | s :: t :: rest => s.reverse ++ '/' :: revName rooted (t :: rest)

theorem revName_cons (rooted : Bool) (s : List Char) (dirs : List (List Char)) :
    revName rooted (s :: dirs) = s.reverse ++ if dirs = [] then (if rooted then ['/'] else []) else '/' :: revName rooted dirs := by
  cases dirs <;> rfl

/-- A proper segment. -/
def Seg (s : List Char) : Prop := s ≠ [] ∧ '/' ∉ s

/-- The state of the loop: names above parent steps, which a rooted path does not have. -/
structure Inv (rooted : Bool) (names ups : List (List Char)) (out : List Char) (dotdot : Nat) : Prop where
  hnames : ∀ s ∈ names, Seg s ∧ s ≠ dots
  hups : ∀ s ∈ ups, s = dots
  hrooted : rooted = true → ups = []
  hout : out = revName rooted (names ++ ups)
  hdotdot : dotdot = (revName rooted ups).length

theorem backUp_seg {dotdot : Nat} {a b : List Char} (ha : '/' ∉ a) (hne : a ≠ []) (hb : b.length = dotdot) :
    backUp dotdot (a ++ b) = b := by
  induction a with
  | nil => exact absurd rfl hne
  | cons c a ih =>
    rw [List.mem_cons, not_or] at ha
    rw [List.cons_append, backUp]
    by_cases h : a = []
    · subst h
      rw [if_neg (by simp; omega)]; rfl
    · rw [if_pos]
      · exact ih ha.2 h
      · refine ⟨?_, fun k => ha.1 k.symm⟩
        have := List.length_pos_iff.2 h
        rw [List.length_append]; omega

theorem backUp_slash {dotdot : Nat} {a b : List Char} (ha : '/' ∉ a) (hb : dotdot ≤ b.length) :
    backUp dotdot (a ++ '/' :: b) = b := by
  induction a with
  | nil => rw [List.nil_append, backUp, if_neg (by simp)]
  | cons c a ih =>
    rw [List.mem_cons, not_or] at ha
    rw [List.cons_append, backUp, if_pos]
    · exact ih ha.2
    · refine ⟨?_, fun k => ha.1 k.symm⟩
      rw [List.length_append, List.length_cons]; omega

theorem revName_length (rooted : Bool) (names ups : List (List Char)) :
    (revName rooted ups).length ≤ (revName rooted (names ++ ups)).length := by
  induction names with
  | nil => exact Nat.le_refl _
  | cons s names ih =>
    rw [List.cons_append, revName_cons, List.length_append]
    split
    · rename_i h
      rw [h] at ih
      cases rooted <;> simp_all [revName]
    · rw [List.length_cons]; omega

/-- Removing the last name. -/
theorem backUp_name {rooted : Bool} {s : List Char} {names ups : List (List Char)} {out : List Char} {dotdot : Nat}
    (h : Inv rooted (s :: names) ups out dotdot) :
    dotdot < out.length ∧ Inv rooted names ups (backUp dotdot out) dotdot := by
  obtain ⟨h1, h2, h3, h4, h5⟩ := h
  have hs := (h1 s (by simp)).1
  have hr : '/' ∉ s.reverse := by simpa using hs.2
  have hne : s.reverse ≠ [] := by simpa using hs.1
  have hpos := List.length_pos_iff.2 hne
  have hl := revName_length rooted names ups
  rw [List.cons_append, revName_cons] at h4
  refine ⟨?_, fun x hx => h1 x (by simp [hx]), h2, h3, ?_, h5⟩
  · rw [h4, List.length_append]
    split
    · rename_i he
      rw [he] at hl
      cases rooted <;> simp_all [revName]
    · rw [List.length_cons]; omega
  · rw [h4]
    split
    · rename_i he
      obtain ⟨e1, e2⟩ := List.append_eq_nil_iff.1 he
      subst e1; subst e2
      apply backUp_seg hr hne
      rw [h5]; rfl
    · apply backUp_slash hr
      omega

theorem revName_pos {rooted : Bool} {dirs : List (List Char)} (h : dirs ≠ []) (hs : ∀ s ∈ dirs, s ≠ []) :
    (if rooted then 1 else 0) < (revName rooted dirs).length := by
  cases dirs with
  | nil => exact absurd rfl h
  | cons s dirs =>
    have := List.length_pos_iff.2 (hs s (by simp))
    rw [revName_cons, List.length_append, List.length_reverse]
    by_cases hd : dirs = []
    · rw [if_pos hd]
      cases rooted <;> simp <;> omega
    · rw [if_neg hd, List.length_cons]
      have := revName_length rooted dirs []
      rw [List.append_nil] at this
      cases rooted <;> simp [revName] at this ⊢ <;> omega

theorem segments_ne (l : List Char) : segments l ≠ [] := by
  cases l with
  | nil => simp [segments]
  | cons c l =>
    rw [segments]
    split
    · simp
    · split <;> simp

/-- The segments of a path that starts with a segment. -/
theorem segments_append (s rest : List Char) (hs : '/' ∉ s) (hr : rest = [] ∨ ∃ r, rest = '/' :: r) :
    segments (s ++ rest) = s :: (segments rest).tail := by
  induction s with
  | nil =>
    rcases hr with rfl | ⟨r, rfl⟩
    · rfl
    · rw [List.nil_append, segments, if_pos rfl]; rfl
  | cons c s ih =>
    rw [List.mem_cons, not_or] at hs
    rw [List.cons_append, segments, if_neg (fun k => hs.1 k.symm), ih hs.2]

/-- Walking on from a border between segments. -/
theorem walk_border (rooted : Bool) (dirs : List (List Char)) (rest : List Char) (hr : rest = [] ∨ ∃ r, rest = '/' :: r) :
    (segments rest).tail.foldl (walk rooted) dirs = (segments rest).foldl (walk rooted) dirs := by
  have hw : walk rooted dirs [] = dirs := by unfold walk; rw [if_pos (Or.inl rfl)]
  rcases hr with rfl | ⟨r, rfl⟩
  · rw [segments, List.foldl_cons, hw]; rfl
  · rw [segments, if_pos rfl, List.foldl_cons, hw]; rfl

theorem border_of {l : List Char} (h : l = [] ∨ l.head? = some '/') : l = [] ∨ ∃ r, l = '/' :: r := by
  rcases h with h | h
  · exact Or.inl h
  · cases l with
    | nil => exact Or.inl rfl
    | cons c l => right; simp at h; exact ⟨l, by rw [h]⟩

theorem loop_resolves (rooted : Bool) (fuel : Nat) (path : List Char) (hf : path.length ≤ fuel) (names ups : List (List Char))
    (out : List Char) (dotdot : Nat) (h : Inv rooted names ups out dotdot) :
    cleanLoop rooted fuel path out dotdot = revName rooted ((segments path).foldl (walk rooted) (names ++ ups)) ∧
      ∀ s ∈ (segments path).foldl (walk rooted) (names ++ ups), Seg s := by
  have hend : ∀ s ∈ names ++ ups, Seg s := by
    intro s hs
    rcases List.mem_append.1 hs with hs | hs
    · exact (h.hnames s hs).1
    · rw [h.hups s hs]; exact ⟨by simp, by simp [dots]⟩
  induction fuel generalizing path names ups out dotdot with
  | zero =>
    have : path = [] := List.length_eq_zero_iff.1 (by omega)
    subst this
    refine ⟨h.hout, ?_⟩
    show ∀ s ∈ walk rooted (names ++ ups) [], Seg s
    unfold walk; rw [if_pos (Or.inl rfl)]; exact hend
  | succ fuel ih =>
    have wnil : ∀ dirs, walk rooted dirs [] = dirs := fun dirs => by unfold walk; rw [if_pos (Or.inl rfl)]
    have wdot : ∀ dirs, walk rooted dirs ['.'] = dirs := fun dirs => by unfold walk; rw [if_pos (Or.inr rfl)]
    cases path with
    | nil =>
      refine ⟨by rw [cleanLoop, segments, List.foldl_cons, wnil]; exact h.hout, ?_⟩
      rw [segments, List.foldl_cons, wnil]; exact hend
    | cons c rest =>
      rw [List.length_cons] at hf
      rw [cleanLoop]
      by_cases h1 : c = '/'
      · rw [if_pos h1, segments, if_pos h1, List.foldl_cons, wnil]
        exact ih rest (by omega) names ups out dotdot h hend
      rw [if_neg h1]
      by_cases h2 : c = '.' ∧ (rest = [] ∨ rest.head? = some '/')
      · have hb := border_of h2.2
        have e : segments (c :: rest) = ['.'] :: (segments rest).tail := by
          rw [h2.1]; exact segments_append ['.'] rest (by simp) hb
        rw [if_pos h2, e, List.foldl_cons, wdot, walk_border _ _ _ hb]
        exact ih rest (by omega) names ups out dotdot h hend
      rw [if_neg h2]
      by_cases h3 : c = '.' ∧ rest.head? = some '.' ∧ (rest.tail = [] ∨ rest.tail.head? = some '/')
      · have hb := border_of h3.2.2
        obtain ⟨rest', rfl⟩ : ∃ r, rest = '.' :: r := by
          cases rest with
          | nil => exact absurd h3.2.1 (by simp)
          | cons d r => exact ⟨r, by have := h3.2.1; simp at this; rw [this]⟩
        simp only [List.tail_cons] at hb
        have e : segments (c :: '.' :: rest') = dots :: (segments rest').tail := by
          rw [h3.1]; exact segments_append dots rest' (by simp [dots]) hb
        rw [if_pos h3, e, List.foldl_cons, List.tail_cons]
        rw [List.length_cons] at hf
        have wd : ∀ dirs, walk rooted dirs dots = match dirs with
            | [] => if rooted then [] else [dots]
            | d :: rest => if d = dots then dots :: d :: rest else rest := fun dirs => by
          unfold walk; rw [if_neg (by simp [dots]), if_pos rfl]; cases dirs <;> rfl
        cases names with
        | cons s names =>
          obtain ⟨g1, g2⟩ := backUp_name h
          rw [if_pos g1, wd, List.cons_append]
          simp only [if_neg (h.hnames s (by simp)).2]
          rw [walk_border _ _ _ hb]
          exact ih rest' (by omega) names ups _ _ g2 (fun x hx => hend x (by simp at hx ⊢; right; exact hx))
        | nil =>
          have ho : out = revName rooted ups := h.hout
          rw [if_neg (by rw [ho, h.hdotdot]; omega)]
          cases rooted with
          | true =>
            have hu := h.hrooted rfl
            subst hu
            rw [if_neg (by simp), wd]
            simp only [List.append_nil, if_true]
            rw [walk_border _ _ _ hb]
            exact ih rest' (by omega) [] [] out dotdot h hend
          | false =>
            rw [if_pos (by simp), wd]
            have hw : (match ([] : List (List Char)) ++ ups with
                | [] => if false = true then [] else [dots]
                | d :: rest => if d = dots then dots :: d :: rest else rest) = [] ++ (dots :: ups) := by
              cases ups with
              | nil => simp
              | cons d ups =>
                have := h.hups d (by simp)
                simp [this]
            rw [hw, walk_border _ _ _ hb]
            have hi : Inv false [] (dots :: ups) ('.' :: '.' :: (if 0 < out.length then '/' :: out else out))
                ('.' :: '.' :: (if 0 < out.length then '/' :: out else out)).length := by
              have hn : '.' :: '.' :: (if 0 < out.length then '/' :: out else out) = revName false (dots :: ups) := by
                rw [revName_cons, ho]
                cases ups with
                | nil => rfl
                | cons d ups =>
                  have := @revName_pos false (d :: ups) (by simp) (fun s hs => by rw [h.hups s hs]; simp [dots])
                  rw [if_pos (by simpa using this), if_neg (by simp)]
                  rfl
              refine ⟨by simp, ?_, by simp, hn, by rw [hn]⟩
              intro s hs
              rcases List.mem_cons.1 hs with rfl | hs
              · rfl
              · exact h.hups s hs
            refine ih rest' (by omega) [] (dots :: ups) _ _ hi ?_
            intro s hs
            rw [List.nil_append] at hs
            rw [hi.hups s hs]; exact ⟨by simp, by simp [dots]⟩
      rw [if_neg h3]
      have htd := List.takeWhile_append_dropWhile (p := fun x : Char => decide (x ≠ '/')) (l := c :: rest)
      have hsl : '/' ∉ (c :: rest).takeWhile fun x : Char => decide (x ≠ '/') := by
        intro k
        have := List.mem_takeWhile_imp k
        simp at this
      have hb : ((c :: rest).dropWhile fun x : Char => decide (x ≠ '/')) = [] ∨
          ∃ r, ((c :: rest).dropWhile fun x : Char => decide (x ≠ '/')) = '/' :: r := by
        by_cases k : ((c :: rest).dropWhile fun x : Char => decide (x ≠ '/')) = []
        · exact Or.inl k
        · right
          have := List.head_dropWhile_not (fun x : Char => decide (x ≠ '/')) k
          refine ⟨((c :: rest).dropWhile fun x : Char => decide (x ≠ '/')).tail, (List.cons_head_tail k).symm.trans ?_⟩
          rw [show ((c :: rest).dropWhile fun x : Char => decide (x ≠ '/')).head k = '/' by simpa using this]
      have hne : ((c :: rest).takeWhile fun x : Char => decide (x ≠ '/')) ≠ [] := by
        rw [List.takeWhile_cons, if_pos (by simpa using h1)]; simp
      have hlen : ((c :: rest).dropWhile fun x : Char => decide (x ≠ '/')).length ≤ fuel := by
        have := congrArg List.length htd
        have hp := List.length_pos_iff.2 hne
        rw [List.length_append, List.length_cons] at this
        omega
      simp only
      generalize ((c :: rest).dropWhile fun x : Char => decide (x ≠ '/')) = rest' at *
      generalize ((c :: rest).takeWhile fun x : Char => decide (x ≠ '/')) = s at *
      have e : segments (c :: rest) = s :: (segments rest').tail := by
        rw [← htd]; exact segments_append s rest' hsl hb
      have hs1 : s ≠ ['.'] := by
        rintro rfl
        simp only [List.cons_append, List.nil_append, List.cons.injEq] at htd
        refine h2 ⟨htd.1.symm, ?_⟩
        rw [← htd.2]
        rcases hb with hb | ⟨r, hb⟩ <;> simp [hb]
      have hs2 : s ≠ dots := by
        rintro rfl
        simp only [dots, List.cons_append, List.nil_append, List.cons.injEq] at htd
        refine h3 ⟨htd.1.symm, ?_⟩
        rw [← htd.2]
        rcases hb with hb | ⟨r, hb⟩ <;> simp [hb]
      have hw : walk rooted (names ++ ups) s = s :: names ++ ups := by
        unfold walk
        rw [if_neg (by rintro (k | k); exacts [hne k, hs1 k]), if_neg hs2]; rfl
      rw [e, List.foldl_cons, hw, walk_border _ _ _ hb]
      have hseg : ∀ x ∈ s :: names ++ ups, Seg x := by
        intro x hx
        rw [List.cons_append, List.mem_cons] at hx
        rcases hx with rfl | hx
        · exact ⟨hne, hsl⟩
        · exact hend x hx
      refine ih rest' hlen (s :: names) ups _ dotdot ⟨?_, h.hups, h.hrooted, ?_, h.hdotdot⟩ hseg
      · intro x hx
        rcases List.mem_cons.1 hx with rfl | hx
        · exact ⟨⟨hne, hsl⟩, hs2⟩
        · exact h.hnames x hx
      · rw [List.cons_append, revName_cons, h.hout]
        congr 1
        by_cases k : names ++ ups = []
        · rw [k, if_pos rfl]
          cases rooted <;> simp [revName]
        · have := @revName_pos rooted (names ++ ups) k (fun s hs => (hend s hs).1)
          rw [if_neg k, if_pos]
          cases rooted
          · simp only [Bool.false_and, Bool.not_false, Bool.true_and, Bool.false_or, bne_iff_ne, Bool.false_eq_true, if_false] at *; omega
          · simp only [Bool.false_and, Bool.not_true, Bool.true_and, Bool.or_false, bne_iff_ne, if_true] at *; omega

theorem revName_reverse (rooted : Bool) (dirs : List (List Char)) :
    (revName rooted dirs).reverse = (if rooted then ['/'] else []) ++ ['/'].intercalate dirs.reverse := by
  induction dirs with
  | nil => cases rooted <;> rfl
  | cons s dirs ih =>
    rw [revName_cons, List.reverse_append, List.reverse_reverse, List.reverse_cons]
    cases dirs with
    | nil => cases rooted <;> simp [List.intercalate]
    | cons t dirs =>
      rw [if_neg (by simp), List.reverse_cons, ih, List.append_assoc, List.append_assoc, ]
      congr 1
      have : ∀ l : List (List Char), l ≠ [] → ['/'].intercalate (l ++ [s]) = ['/'].intercalate l ++ (['/'] ++ s) := by
        intro l hl
        induction l with
        | nil => exact absurd rfl hl
        | cons a l ih =>
          cases l with
          | nil => simp [List.intercalate]
          | cons b l =>
            have e := ih (by simp)
            simp only [List.intercalate, List.cons_append, List.intersperse_cons_cons, List.flatten_cons, List.append_assoc] at e ⊢
            rw [e]
      rw [this _ (by simp)]

/-- `path.Clean` in one formula. -/
theorem pathClean_eq (path : List Char) : pathClean path = pathName (path.head? = some '/') (resolved path) := by
  unfold pathClean resolved
  by_cases h : path = []
  · subst h; rfl
  rw [if_neg h]
  by_cases hr : path.head? = some '/'
  · obtain ⟨r, rfl⟩ : ∃ r, path = '/' :: r := by
      rcases border_of (Or.inr hr) with k | k
      · exact absurd k h
      · exact k
    have hi : Inv true [] [] ['/'] 1 := ⟨by simp, by simp, fun _ => rfl, rfl, rfl⟩
    have := (loop_resolves true (r.length + 1 + 1) r (by omega) [] [] ['/'] 1 hi).1
    have e : (segments ('/' :: r)).foldl (walk true) [] = (segments r).foldl (walk true) [] := by
      rw [segments, if_pos rfl, List.foldl_cons]
      congr 1
    have hh : decide (('/' :: r).head? = some '/') = true := by simp
    rw [hh, e]
    simp only [List.head?_cons, if_true, List.length_cons, List.tail_cons, this, List.nil_append]
    have hl := revName_length true ((segments r).foldl (walk true) []) []
    rw [List.append_nil] at hl
    rw [if_neg (by simp [revName] at hl; omega), revName_reverse]
    simp [pathName]
  · have hi : Inv false [] [] [] 0 := ⟨by simp, by simp, by simp, rfl, rfl⟩
    obtain ⟨k1, k2⟩ := loop_resolves false (path.length + 1) path (by omega) [] [] [] 0 hi
    have hh : decide (path.head? = some '/') = false := by simp [hr]
    rw [hh]
    simp only [if_neg hr, k1, List.nil_append] at k2 ⊢
    generalize (segments path).foldl (walk false) [] = dirs at *
    unfold pathName
    simp only [Bool.false_eq_true, if_false]
    by_cases hd : dirs = []
    · subst hd; rfl
    · have := @revName_pos false dirs hd (fun s hs => (k2 s hs).1)
      rw [if_neg (by simp at this; omega), if_neg (by simpa using hd), revName_reverse]
      simp

end Verif.Lemmas
