import Verif.Lemmas.Path
import Verif.Lemmas.Json
import Verif.Props.Esc
import Verif.Props.Cli
import Verif.Props.AstroData
/-
C59: names of the embedded files.
-/
set_option autoImplicit false

namespace Verif.Props
open Verif.Model Verif.Spec Verif.Lemmas

/-- C59: `path.Clean` gives the shortest name of the place to which a path leads. -/
theorem c59_clean (path : List Char) : pathClean path = pathName (path.head? = some '/') (resolved path) := pathClean_eq path

/-! ### resolved paths -/

/-- What `walk` reaches. -/
def Reached (rooted : Bool) (dirs : List (List Char)) : Prop :=
  ∃ names ups, dirs = names ++ ups ∧ (∀ s ∈ names, Seg s ∧ s ≠ ['.'] ∧ s ≠ dots) ∧ (∀ s ∈ ups, s = dots) ∧
    (rooted = true → ups = [])

theorem reached_walk {rooted : Bool} {dirs : List (List Char)} (h : Reached rooted dirs) {s : List Char} (hs : '/' ∉ s) :
    Reached rooted (walk rooted dirs s) := by
  obtain ⟨names, ups, rfl, h1, h2, h3⟩ := h
  unfold walk
  by_cases k1 : s = [] ∨ s = ['.']
  · rw [if_pos k1]; exact ⟨names, ups, rfl, h1, h2, h3⟩
  rw [if_neg k1]
  by_cases k2 : s = dots
  · rw [if_pos k2]
    cases names with
    | cons n names =>
      have hn := h1 n (by simp)
      simp only [List.cons_append, if_neg hn.2.2]
      exact ⟨names, ups, rfl, fun x hx => h1 x (by simp [hx]), h2, h3⟩
    | nil =>
      cases ups with
      | nil =>
        cases rooted
        · exact ⟨[], [s], rfl, by simp, by simpa using k2, by simp⟩
        · exact ⟨[], [], rfl, by simp, by simp, by simp⟩
      | cons d ups =>
        have hd := h2 d (by simp)
        subst hd
        refine ⟨[], s :: dots :: ups, rfl, by simp, ?_, ?_⟩
        · intro x hx
          rcases List.mem_cons.1 hx with rfl | hx
          · exact k2
          · exact h2 x hx
        · intro hr; exact absurd (h3 hr) (by simp)
  · rw [if_neg k2]
    rw [not_or] at k1
    refine ⟨s :: names, ups, rfl, ?_, h2, h3⟩
    intro x hx
    rcases List.mem_cons.1 hx with rfl | hx
    · exact ⟨⟨k1.1, hs⟩, k1.2, k2⟩
    · exact h1 x hx

theorem segments_noslash (l : List Char) : ∀ s ∈ segments l, '/' ∉ s := by
  induction l with
  | nil => intro s hs; simp [segments] at hs; simp [hs]
  | cons c l ih =>
    intro s hs
    rw [segments] at hs
    split at hs
    · rcases List.mem_cons.1 hs with rfl | hs
      · simp
      · exact ih s hs
    · rename_i hc
      split at hs
      · rename_i t ts e
        rw [e] at ih
        rcases List.mem_cons.1 hs with rfl | hs
        · have := ih t (by simp)
          simp only [List.mem_cons, not_or]
          exact ⟨fun k => hc k.symm, this⟩
        · exact ih s (by simp [hs])
      · rw [List.mem_singleton] at hs
        subst hs
        simpa using fun k => hc k.symm

theorem reached_fold {rooted : Bool} (segs : List (List Char)) (hs : ∀ s ∈ segs, '/' ∉ s) {dirs : List (List Char)}
    (h : Reached rooted dirs) : Reached rooted (segs.foldl (walk rooted) dirs) := by
  induction segs generalizing dirs with
  | nil => exact h
  | cons s segs ih => exact ih (fun x hx => hs x (by simp [hx])) (reached_walk h (hs s (by simp)))

theorem reached_resolved (path : List Char) : Reached (decide (path.head? = some '/')) (resolved path).reverse := by
  unfold resolved
  rw [List.reverse_reverse]
  exact reached_fold _ (segments_noslash path) ⟨[], [], rfl, by simp, by simp, fun _ => rfl⟩

/-- Walking along a resolved path stays on it. -/
theorem walk_reached {rooted : Bool} {dirs : List (List Char)} (h : Reached rooted dirs) :
    dirs.reverse.foldl (walk rooted) [] = dirs := by
  obtain ⟨names, ups, rfl, h1, h2, h3⟩ := h
  rw [List.foldl_reverse]
  have hu : ∀ us : List (List Char), (∀ s ∈ us, s = dots) → (rooted = true → us = []) →
      us.foldr (fun s acc => walk rooted acc s) [] = us := by
    intro us
    induction us with
    | nil => intro _ _; rfl
    | cons d us ih =>
      intro k1 k2
      have hr : rooted = false := by
        cases rooted
        · rfl
        · exact absurd (k2 rfl) (by simp)
      rw [List.foldr_cons, ih (fun x hx => k1 x (by simp [hx])) (by simp [hr])]
      have hd := k1 d (by simp)
      subst hd
      unfold walk
      rw [if_neg (by simp [dots]), if_pos rfl]
      cases us with
      | nil => simp [hr]
      | cons e us =>
        have he := k1 e (by simp)
        simp [he]
  induction names with
  | nil => exact hu ups h2 h3
  | cons s names ih =>
    rw [List.cons_append, List.foldr_cons, ih fun x hx => h1 x (by simp [hx])]
    obtain ⟨⟨g1, g2⟩, g3, g4⟩ := h1 s (by simp)
    unfold walk
    rw [if_neg (by rintro (k | k); exacts [g1 k, g3 k]), if_neg g4]

theorem segments_intercalate (segs : List (List Char)) (hne : segs ≠ []) (h : ∀ s ∈ segs, '/' ∉ s) :
    segments (['/'].intercalate segs) = segs := by
  induction segs with
  | nil => exact absurd rfl hne
  | cons s segs ih =>
    cases segs with
    | nil =>
      have := segments_append s [] (h s (by simp)) (Or.inl rfl)
      simpa [List.intercalate, segments] using this
    | cons t segs =>
      have e : ['/'].intercalate (s :: t :: segs) = s ++ '/' :: ['/'].intercalate (t :: segs) := by
        simp [List.intercalate]
      rw [e, segments_append s _ (h s (by simp)) (Or.inr ⟨_, rfl⟩), segments, if_pos rfl, List.tail_cons,
        ih (by simp) fun x hx => h x (by simp [hx])]

/-- C59: the cleaned name leads to the same place, so cleaning again changes nothing. -/
theorem c59_idempotent (path : List Char) :
    resolved (pathClean path) = resolved path ∧ pathClean (pathClean path) = pathClean path := by
  have hr := reached_resolved path
  have hw := walk_reached hr
  rw [List.reverse_reverse] at hw
  have hseg : ∀ s ∈ resolved path, s ≠ [] ∧ '/' ∉ s := by
    obtain ⟨names, ups, e, h1, h2, -⟩ := hr
    intro s hs
    have : s ∈ names ++ ups := by rw [← e]; simpa using hs
    rcases List.mem_append.1 this with k | k
    · exact (h1 s k).1
    · rw [h2 s k]; simp [dots]
  have key : (pathClean path).head? = some '/' ↔ path.head? = some '/' := by
    rw [c59_clean]
    unfold pathName
    by_cases hp : path.head? = some '/'
    · simp [hp]
    · simp only [hp, decide_false, Bool.false_eq_true, if_false, iff_false]
      split
      · simp
      · rename_i hn
        cases hs : resolved path with
        | nil => exact absurd hs hn
        | cons s ss =>
          obtain ⟨k1, k2⟩ := hseg s (by simp [hs])
          cases s with
          | nil => exact absurd rfl k1
          | cons c s =>
            rw [List.mem_cons, not_or] at k2
            have : ['/'].intercalate ((c :: s) :: ss) = c :: (s ++ (['/'].intercalate ([] :: ss))) := by
              cases ss <;> simp [List.intercalate]
            rw [this]
            simpa using fun k => k2.1 k.symm
  have hres : resolved (pathClean path) = resolved path := by
    conv => lhs; unfold resolved
    rw [show decide ((pathClean path).head? = some '/') = decide (path.head? = some '/') from decide_eq_decide.2 key]
    rw [c59_clean]
    generalize decide (path.head? = some '/') = b at *
    have : (segments (pathName b (resolved path))).foldl (walk b) [] = (resolved path).foldl (walk b) [] := by
      have wnil : ∀ dirs, walk b dirs [] = dirs := fun dirs => by unfold walk; rw [if_pos (Or.inl rfl)]
      have wdot : ∀ dirs, walk b dirs ['.'] = dirs := fun dirs => by unfold walk; rw [if_pos (Or.inr rfl)]
      unfold pathName
      by_cases hn : resolved path = []
      · rw [hn]
        cases b <;> simp [List.intercalate, segments, wnil, wdot]
      · have hsi := segments_intercalate _ hn fun s hs => (hseg s hs).2
        cases b
        · simp only [Bool.false_eq_true, if_false, if_neg hn, hsi]
        · simp only [if_true]
          rw [segments, if_pos rfl, List.foldl_cons, wnil, hsi]
    rw [this, hw, List.reverse_reverse]
  refine ⟨hres, ?_⟩
  rw [c59_clean (pathClean path), hres,
    show decide ((pathClean path).head? = some '/') = decide (path.head? = some '/') from decide_eq_decide.2 key, ← c59_clean]

/-- C59: some names and their clean forms. -/
example : pathClean "/a/./b//../c/".toList = "/a/c".toList ∧ pathClean "../x/../..".toList = "../..".toList ∧ pathClean "".toList = ".".toList := by
  decide +kernel

/-! ### the files of the years -/

theorem year_noslash (y : Int) : '/' ∉ (toString y).toList := by
  have hd : ∀ n : Nat, '/' ∉ Nat.toDigits 10 n := by
    intro n h
    have := Nat.isDigit_of_mem_toDigits (by decide) (by decide) h
    exact absurd this (by decide)
  rw [int_text]
  split_ifs
  · exact hd _
  · simpa using hd _

/-- The name of the file of a year, written as one text. -/
def yearPath (y : Int) : List Char := "/data/astro/astro-".toList ++ (toString y).toList ++ ".json".toList

def yearFile (y : Int) : List Char := "astro-".toList ++ (toString y).toList ++ ".json".toList

theorem yearFile_seg (y : Int) : '/' ∉ yearFile y ∧ yearFile y ≠ [] ∧ yearFile y ≠ ['.'] ∧ yearFile y ≠ dots := by
  refine ⟨?_, ?_, ?_, ?_⟩
  · unfold yearFile
    have := year_noslash y
    simp only [List.mem_append, not_or]
    exact ⟨⟨by decide, this⟩, by decide⟩
  all_goals
    unfold yearFile
    rw [show "astro-".toList = ['a', 's', 't', 'r', 'o', '-'] from rfl]
    simp [dots]

theorem segments_yearFile (y : Int) : segments (yearFile y) = [yearFile y] := by
  have := segments_intercalate [yearFile y] (by simp) (by simpa using (yearFile_seg y).1)
  simpa [List.intercalate] using this

theorem segments_slash (a b : List Char) : segments (a ++ '/' :: b) = segments a ++ segments b := by
  induction a with
  | nil => simp [segments]
  | cons c a ih =>
    rw [List.cons_append, segments, segments]
    split
    · rw [ih]; rfl
    · rw [ih]
      cases h : segments a with
      | nil => exact absurd h (segments_ne a)
      | cons s ss => rfl

/-- C59: the name under which the program asks for the file of a year, for every year. -/
theorem c59_path (y : Int) :
    astroPath y = "/data/astro/astro-".toList ++ (toString y).toList ++ ".json".toList ∧ pathClean (astroPath y) = astroPath y := by
  have hf := yearFile_seg y
  have w : ∀ b dirs, walk b dirs (yearFile y) = yearFile y :: dirs := fun b dirs => by
    unfold walk
    rw [if_neg (by rintro (k | k); exacts [hf.2.1 k, hf.2.2.1 k]), if_neg hf.2.2.2]
  have e1 : astroPath y = '/' :: pathClean ("./data/astro".toList ++ '/' :: yearFile y) := by
    rfl
  have e2 : astroPath y = "/data/astro".toList ++ '/' :: yearFile y := by
    rw [e1, c59_clean]
    have : (("./data/astro".toList ++ '/' :: yearFile y).head? = some '/') = False := by simp
    rw [resolved, segments_slash, segments_yearFile]
    simp only [this, decide_false]
    rw [List.foldl_append, List.foldl_cons, List.foldl_nil, w]
    rw [show (segments "./data/astro".toList).foldl (walk false) [] = ["astro".toList, "data".toList] from by decide]
    simp [pathName, List.intercalate]
  refine ⟨?_, ?_⟩
  · rw [e2]; unfold yearFile
    rw [show "/data/astro/astro-".toList = "/data/astro".toList ++ '/' :: "astro-".toList from rfl]
    simp
  · rw [e2, c59_clean, resolved, segments_slash, segments_yearFile]
    have : (("/data/astro".toList ++ '/' :: yearFile y).head? = some '/') = True := by simp
    simp only [this, decide_true]
    rw [List.foldl_append, List.foldl_cons, List.foldl_nil, w]
    rw [show (segments "/data/astro".toList).foldl (walk true) [] = ["astro".toList, "data".toList] from by decide]
    simp [pathName, List.intercalate]

example : astroPath 2015 = "/data/astro/astro-2015.json".toList ∧ astroPath (-44) = "/data/astro/astro--44.json".toList := by
  decide

theorem lookup_years (k : List Char) (l : List Nat) (rest : List (List Char × EscEntry)) (y : Int) (hk : k = yearPath y) :
    ((l.map fun (i : Nat) => (yearPath (1900 + (i : Int)), EscEntry.file (1900 + (i : Int)))) ++ rest).lookup k =
      if ∃ i ∈ l, 1900 + (i : Int) = y then some (EscEntry.file y) else rest.lookup k := by
  induction l with
  | nil => simp
  | cons i l ih =>
    rw [List.map_cons, List.cons_append, List.lookup]
    by_cases h : 1900 + (i : Int) = y
    · subst h
      rw [hk, if_pos ⟨i, by simp, rfl⟩, beq_self_eq_true]
    · have hne : (k == yearPath (1900 + (i : Int))) = false := by
        rw [beq_eq_false_iff_ne, hk]
        intro hc
        unfold yearPath at hc
        rw [List.append_left_inj, List.append_right_inj, String.toList_inj] at hc
        exact h (int_toString_injective hc).symm
      rw [hne]
      simp only [ih]
      congr 1
      simp [h]

/-- C59: a year's name finds the file of that very year, and no file outside 1900 to 2040. -/
theorem c59_files (y : Int) :
    escFind (astroPath y) = (if 1900 ≤ y ∧ y ≤ 2040 then some (.file y) else none) ∧ readFile (astroPath y) = embeddedFiles y := by
  have h1 : escFind (astroPath y) = (if 1900 ≤ y ∧ y ≤ 2040 then some (.file y) else none) := by
    unfold escFind
    rw [(c59_path y).2, (c59_path y).1]
    have hl := lookup_years (yearPath y) (List.range 141)
      [("/".toList, .dir), ("/data".toList, .dir), ("/data/astro".toList, .dir)] y rfl
    refine Eq.trans hl ?_
    have hiff : (∃ i ∈ List.range 141, 1900 + (i : Int) = y) ↔ (1900 ≤ y ∧ y ≤ 2040) := by
      simp only [List.mem_range]
      constructor
      · rintro ⟨i, hi, rfl⟩; omega
      · rintro ⟨ha, hb⟩; exact ⟨(y - 1900).toNat, by omega, by omega⟩
    rw [if_congr hiff rfl rfl]
    congr 1
  refine ⟨h1, ?_⟩
  unfold readFile
  rw [h1]
  split_ifs with h
  · rfl
  · exact ((c53_years y).2 (by omega)).symm

/-! ### `Dir` -/

theorem segments_upwards (a b : List Char) (k : Nat) (hb : b = [] ∨ ∃ r, b = '/' :: r) :
    segments (a ++ upwards k ++ b) = segments a ++ List.replicate k dots ++ (segments b).tail := by
  induction k generalizing a with
  | zero =>
    rcases hb with rfl | ⟨r, rfl⟩
    · simp [upwards, segments]
    · simp [upwards, segments_slash, segments]
  | succ k ih =>
    have e : a ++ upwards (k + 1) ++ b = (a ++ '/' :: ['.', '.']) ++ upwards k ++ b := by
      simp [upwards, List.replicate_succ]
    rw [e, ih, segments_slash, List.replicate_succ]
    simp [segments, dots]

theorem walk_upwards {dirs : List (List Char)} (h : Reached true dirs) (k : Nat) :
    (List.replicate k dots).foldl (walk true) dirs = dirs.drop k := by
  induction k generalizing dirs with
  | zero => rfl
  | succ k ih =>
    rw [List.replicate_succ, List.foldl_cons, ih (reached_walk h (by decide))]
    obtain ⟨names, ups, rfl, h1, -, h3⟩ := h
    rw [h3 rfl]
    cases names with
    | nil => simp [walk, dots]
    | cons n names =>
      have := (h1 n (by simp)).2.2
      unfold walk
      rw [if_neg (by simp [dots]), if_pos rfl]
      simp [this]

theorem walk_length (rooted : Bool) (segs dirs : List (List Char)) :
    (segs.foldl (walk rooted) dirs).length ≤ dirs.length + segs.length := by
  induction segs generalizing dirs with
  | nil => simp
  | cons s segs ih =>
    rw [List.foldl_cons]
    refine le_trans (ih _) ?_
    have : (walk rooted dirs s).length ≤ dirs.length + 1 := by
      unfold walk
      by_cases h1 : s = [] ∨ s = ['.']
      · rw [if_pos h1]; omega
      rw [if_neg h1]
      by_cases h2 : s = ['.', '.']
      · rw [if_pos h2]
        cases dirs with
        | nil => cases rooted <;> simp
        | cons d dirs =>
          simp only
          split_ifs <;> simp only [List.length_cons] <;> omega
      · rw [if_neg h2]; exact le_refl _
    rw [List.length_cons]
    omega

/-- C59: the directory given to `Dir` confines nothing: from every directory every file of the whole table is reached by
enough `..`. -/
theorem c59_dir (pre name : List Char) (k : Nat) (hp : pre.head? = some '/') (hn : name.head? = some '/')
    (hk : (segments pre).length ≤ k) : dirFind pre (upwards k ++ name) = escFind name := by
  unfold dirFind escFind
  congr 1
  have hb : name = [] ∨ ∃ r, name = '/' :: r := by
    cases name with
    | nil => exact Or.inl rfl
    | cons c r =>
      simp only [List.head?_cons, Option.some.injEq] at hn
      exact Or.inr ⟨r, by rw [hn]⟩
  have hh : (pre ++ (upwards k ++ name)).head? = some '/' := by
    cases pre with
    | nil => cases hp
    | cons c pre => simpa using hp
  have hr : Reached true ((segments pre).foldl (walk true) []) :=
    reached_fold _ (segments_noslash pre) ⟨[], [], rfl, by simp, by simp, fun _ => rfl⟩
  have hl := walk_length true (segments pre) []
  rw [c59_clean, c59_clean, resolved, resolved, hh, hn, ← List.append_assoc, segments_upwards _ _ _ hb]
  simp only [decide_true]
  rw [List.foldl_append, List.foldl_append, walk_upwards hr, List.drop_eq_nil_of_le (by simp at hl; omega)]
  rcases hb with rfl | ⟨r, rfl⟩
  · cases hn
  · simp [segments, walk]

example : dirFind "/data/astro".toList "/astro-2015.json".toList = some (.file 2015) ∧
    dirFind "/docs".toList "/../data/astro/astro-2015.json".toList = some (.file 2015) ∧
    dirFind "/docs".toList "/data/astro/astro-2015.json".toList = none := by decide +kernel

/-! ### `Name` -/

theorem segments_slashes (l : List Char) (h : ∀ c ∈ l, c = '/') : ∀ s ∈ segments l, s = [] := by
  induction l with
  | nil => simp [segments]
  | cons c l ih =>
    have hc := h c (by simp)
    subst hc
    intro s hs
    rw [segments, if_pos rfl] at hs
    rcases List.mem_cons.1 hs with k | k
    · exact k
    · exact ih (fun x hx => h x (by simp [hx])) s k

theorem lastPart_of (a s t : List Char) (ha : a = [] ∨ ∃ b, a = b ++ ['/']) (hs : s ≠ []) (hs' : '/' ∉ s) (ht : ∀ c ∈ t, c = '/') :
    lastPart (a ++ s ++ t) = some s := by
  have hb : t = [] ∨ ∃ r, t = '/' :: r := by
    cases t with
    | nil => exact Or.inl rfl
    | cons c t => exact Or.inr ⟨t, by rw [ht c (by simp)]⟩
  have h0 : ((segments t).tail.filter (· ≠ [])) = [] := by
    rw [List.filter_eq_nil_iff]
    intro x hx
    simpa using segments_slashes t ht x (List.mem_of_mem_tail hx)
  have h1 : (segments (s ++ t)).filter (· ≠ []) = [s] := by
    rw [segments_append s t hs' hb, List.filter_cons_of_pos (by simpa using hs), h0]
  unfold lastPart
  rcases ha with rfl | ⟨b, rfl⟩
  · rw [List.nil_append, h1]; rfl
  · rw [List.append_assoc, List.append_assoc, List.singleton_append, segments_slash, List.filter_append, h1]
    simp

/-- C59: `path.Base` is the last part of a path that is not empty. -/
theorem c59_base (path : List Char) :
    pathBase path = (lastPart path).getD (if path = [] then ['.'] else ['/']) := by
  unfold pathBase
  by_cases hp : path = []
  · subst hp; rfl
  rw [if_neg hp, if_neg hp]
  simp only
  have e1 := List.takeWhile_append_dropWhile (p := fun c : Char => decide (c = '/')) (l := path.reverse)
  have e2 := List.takeWhile_append_dropWhile (p := fun c : Char => decide (c ≠ '/'))
    (l := path.reverse.dropWhile fun c => decide (c = '/'))
  have k1 : ∀ c ∈ path.reverse.takeWhile (fun c => decide (c = '/')), c = '/' := fun c hc => by
    simpa using List.mem_takeWhile_imp hc
  have k2 : '/' ∉ (path.reverse.dropWhile (fun c => decide (c = '/'))).takeWhile (fun c => decide (c ≠ '/')) := fun hc => by
    simpa using List.mem_takeWhile_imp hc
  have k3 : ∀ l : List Char, l.dropWhile (fun c => decide (c ≠ '/')) = [] ∨
      ∃ b, l.dropWhile (fun c => decide (c ≠ '/')) = '/' :: b := by
    intro l
    induction l with
    | nil => exact Or.inl rfl
    | cons c l ih =>
      by_cases hc : c = '/'
      · subst hc; exact Or.inr ⟨l, by simp⟩
      · rw [List.dropWhile_cons_of_pos (by simpa using hc)]; exact ih
  have k4 : ∀ l : List Char, l.dropWhile (fun c => decide (c = '/')) = [] ∨ (l.dropWhile (fun c => decide (c = '/'))).head? ≠ some '/' := by
    intro l
    induction l with
    | nil => exact Or.inl rfl
    | cons c l ih =>
      by_cases hc : c = '/'
      · subst hc; rw [List.dropWhile_cons_of_pos (by simp)]; exact ih
      · right; rw [List.dropWhile_cons_of_neg (by simpa using hc)]; simpa using hc
  have k5 := k4 path.reverse
  have k6 := k3 (path.reverse.dropWhile fun c => decide (c = '/'))
  generalize path.reverse.dropWhile (fun c => decide (c = '/')) = rest at *
  generalize path.reverse.takeWhile (fun c => decide (c = '/')) = sl at *
  generalize rest.dropWhile (fun c => decide (c ≠ '/')) = front at *
  generalize rest.takeWhile (fun c => decide (c ≠ '/')) = last at *
  have e : path = front.reverse ++ last.reverse ++ sl.reverse := by
    rw [← List.reverse_append, ← List.reverse_append, e2, e1, List.reverse_reverse]
  by_cases hl : last = []
  · rw [if_pos hl]
    have hr : rest = [] := by
      rcases k5 with k | k
      · exact k
      · rw [hl, List.nil_append] at e2
        rcases k6 with k6 | ⟨b, k6⟩
        · rw [← e2, k6]
        · rw [← e2, k6] at k; exact absurd rfl k
    have hf : front = [] := by rw [hr] at e2; exact (List.append_eq_nil_iff.1 e2).2
    have : lastPart path = none := by
      unfold lastPart
      rw [e, hl, hf, List.getLast?_eq_none_iff, List.filter_eq_nil_iff]
      intro x hx
      simpa using segments_slashes sl.reverse (fun c hc => k1 c (by simpa using hc)) x (by simpa using hx)
    rw [this]; rfl
  · rw [if_neg hl, e, lastPart_of]
    · rfl
    · rcases k6 with k6 | ⟨b, k6⟩
      · left; rw [k6]; rfl
      · right; exact ⟨b.reverse, by rw [k6]; simp⟩
    · simpa using hl
    · simpa using k2
    · intro c hc; exact k1 c (by simpa using hc)

theorem lastPart_name (rooted : Bool) (segs : List (List Char)) (h : ∀ s ∈ segs, s ≠ [] ∧ '/' ∉ s) :
    lastPart (pathName rooted segs) = if segs = [] ∧ rooted = false then some ['.'] else segs.getLast? := by
  have hfil : segs.filter (· ≠ []) = segs := List.filter_eq_self.2 fun s hs => by simpa using (h s hs).1
  unfold lastPart pathName
  by_cases hn : segs = []
  · subst hn
    cases rooted <;> simp [segments, List.intercalate]
  · have hsi := segments_intercalate segs hn fun s hs => (h s hs).2
    cases rooted
    · simp only [Bool.false_eq_true, if_false, if_neg hn, hsi, hfil, and_true]
    · simp only [if_true, segments, hsi]
      rw [List.filter_cons_of_neg (by simp), hfil]
      simp

theorem walk_filter (rooted : Bool) (segs dirs : List (List Char)) :
    segs.foldl (walk rooted) dirs = (segs.filter (· ≠ [])).foldl (walk rooted) dirs := by
  induction segs generalizing dirs with
  | nil => rfl
  | cons s segs ih =>
    by_cases hs : s = []
    · rw [List.filter_cons_of_neg (by simpa using hs), List.foldl_cons, ← ih, hs]
      congr 1
    · rw [List.filter_cons_of_pos (by simpa using hs), List.foldl_cons, List.foldl_cons, ih]

theorem resolved_seg (path : List Char) : ∀ s ∈ resolved path, (s ≠ [] ∧ '/' ∉ s) ∧
    (path.head? = some '/' → s ≠ ['.'] ∧ s ≠ dots) := by
  obtain ⟨names, ups, e, h1, h2, h3⟩ := reached_resolved path
  intro s hs
  have : s ∈ names ++ ups := by rw [← e]; simpa using hs
  rcases List.mem_append.1 this with k | k
  · exact ⟨(h1 s k).1, fun _ => (h1 s k).2⟩
  · refine ⟨by rw [h2 s k]; simp [dots], fun hp => ?_⟩
    rw [h3 (by simpa using hp)] at k
    cases k

/-- C59: the name that `Name` reports (`path.Base` of the path as it was asked for) is the name of the file found if the
path ends in the name of a file; for a path from the root ending in `.` or `..` it never is. -/
theorem c59_name (path s : List Char) (h : lastPart path = some s) :
    (s ≠ ['.'] → s ≠ dots → pathBase path = pathBase (pathClean path)) ∧
    (s = ['.'] ∨ s = dots → path.head? = some '/' → pathBase path ≠ pathBase (pathClean path)) := by
  have hb : pathBase path = s := by rw [c59_base, h]; rfl
  have hseg := fun x hx => (resolved_seg path x hx).1
  rw [hb, c59_base (pathClean path), c59_clean, lastPart_name _ _ hseg]
  constructor
  · intro h1 h2
    have hs0 : s ≠ [] := by
      have := List.mem_filter.1 (List.mem_of_getLast? h)
      simpa using this.2
    have : (resolved path).getLast? = some s := by
      obtain ⟨init, hi⟩ := List.getLast?_eq_some_iff.1 h
      unfold resolved
      rw [walk_filter, hi, List.foldl_append, List.foldl_cons, List.foldl_nil]
      rw [walk.eq_def, if_neg (by rintro (k | k); exacts [hs0 k, h1 k]), if_neg h2]
      simp
    rw [if_neg (by rintro ⟨k, -⟩; rw [k] at this; cases this), this]
    rfl
  · intro h1 hp
    rw [if_neg (by simp [hp])]
    cases hg : (resolved path).getLast? with
    | none =>
      rw [Option.getD_none, if_neg]
      · rcases h1 with rfl | rfl <;> decide
      · simp [pathName, hp]
    | some t =>
      have := (resolved_seg path t (List.mem_of_getLast? hg)).2 hp
      rw [Option.getD_some]
      rintro rfl
      rcases h1 with k | k
      exacts [this.1 k, this.2 k]

example : escFind "/data/astro/astro-1950.json/.".toList = some (.file 1950) ∧
    pathBase "/data/astro/astro-1950.json/.".toList = ".".toList ∧
    escFind "/data//astro/./astro-1950.json/".toList = some (.file 1950) ∧
    pathBase "/data//astro/./astro-1950.json/".toList = "astro-1950.json".toList := by decide +kernel

open Verif.Model.Esc Verif.Lemmas.Esc in
/-- A concrete case of `c38_name` with the real names: the second caller asks for the file by its own name and still finds it
named ".". -/
example :
    let env : Env :=
      { escData := fun k => if k = "/data/astro/astro-1950.json" then some (demoFile false) else none
        clean := fun n => String.ofList (pathClean n.toList)
        base := fun n => String.ofList (pathBase n.toList)
        arg := fun i => if i = 0 then "/data/astro/astro-1950.json/." else "/data/astro/astro-1950.json" }
    let s := run env .init (List.replicate 11 0 ++ List.replicate 11 1)
    (s.call 1).pc = .returned [1, 2, 3] none ∧ (s.file "/data/astro/astro-1950.json").name = "." := by
  decide +kernel

end Verif.Props
