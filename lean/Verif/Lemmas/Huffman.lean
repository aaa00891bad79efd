import Verif.Model.Gzip
import Verif.Spec.Deflate
import Mathlib.Tactic.Ring
import Mathlib.Tactic.Linarith
import Mathlib.Tactic.IntervalCases
import Mathlib.Data.List.Nodup
/-
The prefix codes of Model/Gzip.lean are those of RFC 1951, 3.2.2.
-/
set_option autoImplicit false

namespace Verif.Lemmas.Deflate
open Verif.Model.Gzip
open Verif.Spec.Deflate (lsb msb IsCode Usable space nextCode)

/-! ### numbers and bits -/

/-- The stream of bits as the number of the model. -/
def enc : List Bool → Nat
  | [] => 1
  | b :: rest => b.toNat + 2 * enc rest

theorem enc_pos (l : List Bool) : 0 < enc l := by
  induction l with
  | nil => decide
  | cons b l ih => rw [enc]; omega

theorem enc_injective {a b : List Bool} (h : enc a = enc b) : a = b := by
  induction a generalizing b with
  | nil =>
    cases b with
    | nil => rfl
    | cons y b => have := enc_pos b; simp only [enc] at h; omega
  | cons x a ih =>
    cases b with
    | nil => have := enc_pos a; simp only [enc] at h; omega
    | cons y b =>
      simp only [enc] at h
      have hx := Bool.toNat_lt x
      have hy := Bool.toNat_lt y
      have hxy : x = y := by cases x <;> cases y <;> simp at h ⊢ <;> omega
      rw [hxy, ih (b := b) (by omega)]

theorem enc_append (a b : List Bool) : enc (a ++ b) = lsb a + 2 ^ a.length * enc b := by
  induction a with
  | nil => simp [lsb]
  | cons x a ih => rw [List.cons_append, enc, ih, lsb, List.length_cons, pow_succ]; ring

theorem lsb_lt (a : List Bool) : lsb a < 2 ^ a.length := by
  induction a with
  | nil => decide
  | cons x a ih =>
    have := Bool.toNat_lt x
    rw [lsb, List.length_cons, pow_succ]; omega

theorem lsb_injective {a b : List Bool} (hl : a.length = b.length) (h : lsb a = lsb b) : a = b := by
  apply enc_injective
  rw [← List.append_nil a, ← List.append_nil b, enc_append, enc_append, h, hl]

theorem enc_bounds (l : List Bool) : 2 ^ l.length ≤ enc l ∧ enc l < 2 ^ (l.length + 1) := by
  have := enc_append l []
  rw [List.append_nil, show enc [] = 1 from rfl, Nat.mul_one] at this
  have h := lsb_lt l
  rw [pow_succ]; omega

theorem log2_enc (l : List Bool) : (enc l).log2 = l.length := by
  have h := enc_bounds l
  exact (Nat.log2_eq_iff (by have := enc_pos l; omega)).2 h

theorem readBits_append (a b : List Bool) : readBits a.length (enc (a ++ b)) = some (lsb a, enc b) := by
  have h : enc (a ++ b) / 2 ^ a.length = enc b := by
    rw [enc_append, Nat.add_mul_div_left _ _ (by positivity), Nat.div_eq_of_lt (lsb_lt a), Nat.zero_add]
  have h2 : enc (a ++ b) % 2 ^ a.length = lsb a := by
    rw [enc_append, Nat.add_mul_mod_self_left, Nat.mod_eq_of_lt (lsb_lt a)]
  have := enc_pos b
  rw [readBits]
  simp only [h, h2]
  rw [if_neg (by omega)]

theorem readBits_iff (n v s : Nat) (l : List Bool) :
    readBits n (enc l) = some (v, s) ↔ ∃ a b, l = a ++ b ∧ a.length = n ∧ lsb a = v ∧ s = enc b := by
  constructor
  · intro h
    by_cases hn : n ≤ l.length
    · have e := readBits_append (l.take n) (l.drop n)
      rw [List.take_append_drop, List.length_take, Nat.min_eq_left hn, h] at e
      simp only [Option.some.injEq, Prod.mk.injEq] at e
      exact ⟨l.take n, l.drop n, (List.take_append_drop n l).symm, by rw [List.length_take, Nat.min_eq_left hn], e.1.symm, e.2⟩
    · have : enc l / 2 ^ n = 0 := Nat.div_eq_of_lt (lt_of_lt_of_le (enc_bounds l).2 (Nat.pow_le_pow_right (by decide) (by omega)))
      rw [readBits] at h
      simp [this] at h
  · rintro ⟨a, b, rfl, rfl, rfl, rfl⟩
    exact readBits_append a b

theorem align_enc (l : List Bool) : align (enc l) = enc (l.drop (l.length % 8)) := by
  have hle : l.length % 8 ≤ l.length := Nat.mod_le _ _
  have e := enc_append (l.take (l.length % 8)) (l.drop (l.length % 8))
  have hlen : (l.take (l.length % 8)).length = l.length % 8 := by rw [List.length_take, Nat.min_eq_left hle]
  have hlt := lsb_lt (l.take (l.length % 8))
  rw [List.take_append_drop, hlen] at e
  rw [hlen] at hlt
  rw [align, log2_enc, e, Nat.add_mul_div_left _ _ (by positivity), Nat.div_eq_of_lt hlt, Nat.zero_add]

theorem msb_cons (b : Bool) (c : List Bool) : msb (b :: c) = b.toNat * 2 ^ c.length + msb c := by
  have key : ∀ (l : List Bool) (n : Nat), l.foldl (fun n b => 2 * n + b.toNat) n = n * 2 ^ l.length + l.foldl (fun n b => 2 * n + b.toNat) 0 := by
    intro l
    induction l with
    | nil => intro n; simp
    | cons x l ih =>
      intro n
      rw [List.foldl_cons, List.foldl_cons, ih, ih (2 * 0 + x.toNat), List.length_cons, pow_succ]; ring
  rw [msb, List.foldl_cons, key, msb]; ring

theorem msb_lt (c : List Bool) : msb c < 2 ^ c.length := by
  induction c with
  | nil => decide
  | cons b c ih =>
    rw [msb_cons, List.length_cons, pow_succ]
    cases b <;> simp <;> omega

/-! ### reading along a path -/

/-- A path of a tree to a symbol. -/
inductive Path : Tree → List Bool → Nat → Prop
  | leaf (x : Nat) : Path (.leaf x) [] x
  | zero {a b : Tree} {c : List Bool} {x : Nat} (h : Path a c x) : Path (.node a b) (false :: c) x
  | one {a b : Tree} {c : List Bool} {x : Nat} (h : Path b c x) : Path (.node a b) (true :: c) x

theorem read_path {t : Tree} {c : List Bool} {x : Nat} (h : Path t c x) (rest : List Bool) : t.read (enc (c ++ rest)) = some (x, enc rest) := by
  induction h with
  | leaf x => rfl
  | @zero a b c x h ih =>
    have hp := enc_pos (c ++ rest)
    rw [List.cons_append, enc, Tree.read]
    have e1 : (false.toNat + 2 * enc (c ++ rest)) / 2 = enc (c ++ rest) := by simp
    have e2 : (false.toNat + 2 * enc (c ++ rest)) % 2 = 0 := by simp
    simp only [e1, e2]
    rw [if_neg (by omega), if_pos trivial, ih]
  | @one a b c x h ih =>
    have hp := enc_pos (c ++ rest)
    rw [List.cons_append, enc, Tree.read]
    have e1 : (true.toNat + 2 * enc (c ++ rest)) / 2 = enc (c ++ rest) := by simp; omega
    have e2 : (true.toNat + 2 * enc (c ++ rest)) % 2 = 1 := by simp
    simp only [e1, e2]
    rw [if_neg (by omega), if_neg (by decide), ih]

theorem read_iff (t : Tree) (l : List Bool) (x s : Nat) :
    t.read (enc l) = some (x, s) ↔ ∃ c rest, l = c ++ rest ∧ s = enc rest ∧ Path t c x := by
  constructor
  · intro h
    induction t generalizing l with
    | empty => simp [Tree.read] at h
    | leaf y =>
      simp only [Tree.read, Option.some.injEq, Prod.mk.injEq] at h
      exact ⟨[], l, rfl, h.2.symm, h.1 ▸ Path.leaf y⟩
    | node a b iha ihb =>
      cases l with
      | nil => simp [Tree.read, enc] at h
      | cons v l =>
        have hp := enc_pos l
        rw [enc, Tree.read] at h
        cases v with
        | false =>
          have e1 : (false.toNat + 2 * enc l) / 2 = enc l := by simp
          have e2 : (false.toNat + 2 * enc l) % 2 = 0 := by simp
          simp only [e1, e2] at h
          rw [if_neg (by omega), if_pos trivial] at h
          obtain ⟨c, rest, rfl, h2, h3⟩ := iha l h
          exact ⟨false :: c, rest, rfl, h2, .zero h3⟩
        | true =>
          have e1 : (true.toNat + 2 * enc l) / 2 = enc l := by simp; omega
          have e2 : (true.toNat + 2 * enc l) % 2 = 1 := by simp
          simp only [e1, e2] at h
          rw [if_neg (by omega), if_neg (by decide)] at h
          obtain ⟨c, rest, rfl, h2, h3⟩ := ihb l h
          exact ⟨true :: c, rest, rfl, h2, .one h3⟩
  · rintro ⟨c, rest, rfl, rfl, h⟩
    exact read_path h rest

/-! ### the codes handed out from left to right -/

/-- The space of codes of these lengths. -/
def weight (l : List (Nat × Nat)) : Nat := (l.map fun p => 2 ^ (15 - p.1)).sum

theorem weight_append (a b : List (Nat × Nat)) : weight (a ++ b) = weight a + weight b := by
  rw [weight, List.map_append, List.sum_append]; rfl

theorem weight_cons (p : Nat × Nat) (b : List (Nat × Nat)) : weight (p :: b) = 2 ^ (15 - p.1) + weight b := rfl

theorem weight_pos {l : List (Nat × Nat)} (h : l ≠ []) : 0 < weight l := by
  cases l with
  | nil => exact absurd rfl h
  | cons p l => rw [weight_cons]; have : 0 < 2 ^ (15 - p.1) := by positivity
                omega

/-- What `buildTree` does from a depth on. -/
structure Built (depth : Nat) (l : List (Nat × Nat)) (t : Tree) (rest used : List (Nat × Nat)) : Prop where
  split : l = used ++ rest
  le : weight used ≤ 2 ^ (15 - depth)
  full : t.complete = true ↔ weight used = 2 ^ (15 - depth)
  left : rest ≠ [] → t.complete = true
  path : ∀ c x, Path t c x ↔ ∃ pre post, used = pre ++ (depth + c.length, x) :: post ∧ msb c * 2 ^ (15 - (depth + c.length)) = weight pre

theorem path_empty (c : List Bool) (x : Nat) : ¬ Path .empty c x := by intro h; cases h

theorem buildTree_built (fuel depth : Nat) (hf : fuel + depth = 16) (hd : depth ≤ 15) (l : List (Nat × Nat)) (hs : l.Pairwise fun p q => p.1 ≤ q.1)
    (hl : ∀ p ∈ l, depth ≤ p.1 ∧ p.1 ≤ 15) : ∃ used, Built depth l (buildTree fuel depth l).1 (buildTree fuel depth l).2 used := by
  induction fuel generalizing depth l with
  | zero => omega
  | succ fuel ih =>
    cases l with
    | nil =>
      refine ⟨[], ?_, ?_, ?_, ?_, ?_⟩
      · rw [buildTree.eq_def]; rfl
      · simp [weight]
      · rw [buildTree.eq_def]; simp only [Tree.complete, weight, List.map_nil, List.sum_nil, Bool.false_eq_true, false_iff]; exact (Nat.two_pow_pos _).ne
      · rw [buildTree.eq_def]; simp
      · intro c x
        constructor
        · intro h; rw [buildTree.eq_def] at h; exact absurd h (path_empty c x)
        · rintro ⟨pre, post, h, _⟩; simp at h
    | cons p rest =>
      obtain ⟨len, symbol⟩ := p
      rw [buildTree.eq_def]
      dsimp only
      by_cases he : len = depth
      · rw [if_pos he]
        subst he
        refine ⟨[(len, symbol)], rfl, by simp [weight], by simp [weight, Tree.complete], by simp [Tree.complete], ?_⟩
        intro c x
        constructor
        · intro h
          cases h
          exact ⟨[], [], rfl, by simp [weight, msb]⟩
        · rintro ⟨pre, post, h, _⟩
          cases pre with
          | nil =>
            simp only [List.nil_append, List.cons.injEq, Prod.mk.injEq] at h
            obtain ⟨⟨h1, rfl⟩, _⟩ := h
            rw [List.eq_nil_of_length_eq_zero (show c.length = 0 by omega)]
            exact .leaf _
          | cons q pre => simp at h
      · rw [if_neg he]
        have h0 := hl (len, symbol) (by simp)
        dsimp only at h0
        have hd' : depth + 1 ≤ 15 := by omega
        have hall : ∀ p ∈ (len, symbol) :: rest, depth + 1 ≤ p.1 ∧ p.1 ≤ 15 := by
          intro p hp
          refine ⟨?_, (hl p hp).2⟩
          rcases List.mem_cons.1 hp with rfl | hp'
          · dsimp only; omega
          · have := (List.pairwise_cons.1 hs).1 p hp'
            dsimp only at this; omega
        obtain ⟨ua, A⟩ := ih (depth + 1) (by omega) hd' _ hs hall
        set ra := buildTree fuel (depth + 1) ((len, symbol) :: rest) with hra
        have hsub : ra.2.Sublist ((len, symbol) :: rest) := by rw [A.split]; exact List.sublist_append_right _ _
        obtain ⟨ub, B⟩ := ih (depth + 1) (by omega) hd' ra.2 (hs.sublist hsub) fun p hp => hall p (hsub.subset hp)
        set rb := buildTree fuel (depth + 1) ra.2 with hrb
        have hpow : 2 ^ (15 - depth) = 2 * 2 ^ (15 - (depth + 1)) := by
          rw [show 15 - depth = 15 - (depth + 1) + 1 by omega, pow_succ]; ring
        have hA := A.le
        have hB := B.le
        have hub : ub ≠ [] → weight ua = 2 ^ (15 - (depth + 1)) := by
          intro h
          refine A.full.1 (A.left ?_)
          rw [B.split]
          simp [h]
        refine ⟨ua ++ ub, ?_, ?_, ?_, ?_, ?_⟩
        · rw [List.append_assoc, ← B.split, ← A.split]
        · rw [weight_append]; omega
        · rw [weight_append, Tree.complete, Bool.and_eq_true, A.full, B.full]; omega
        · intro h
          have hb := B.left h
          have ha := A.left (by rw [B.split]; simp [h])
          rw [Tree.complete, ha, hb]; rfl
        · intro c x
          constructor
          · intro h
            cases h with
            | @zero _ _ c x h =>
              obtain ⟨pre, post, h1, h2⟩ := (A.path c x).1 h
              refine ⟨pre, post ++ ub, ?_, ?_⟩
              · rw [h1, List.length_cons, show depth + (c.length + 1) = depth + 1 + c.length by omega]; simp
              · rw [msb_cons, List.length_cons, show depth + (c.length + 1) = depth + 1 + c.length by omega]; simpa using h2
            | @one _ _ c x h =>
              obtain ⟨pre, post, h1, h2⟩ := (B.path c x).1 h
              have hm := hall (depth + 1 + c.length, x) (hsub.subset (by rw [B.split, h1]; simp))
              dsimp only at hm
              refine ⟨ua ++ pre, post, ?_, ?_⟩
              · rw [h1, List.length_cons, show depth + (c.length + 1) = depth + 1 + c.length by omega]; simp
              · rw [msb_cons, List.length_cons, show depth + (c.length + 1) = depth + 1 + c.length by omega, weight_append,
                  hub (by rw [h1]; simp), Nat.add_mul, h2, Bool.toNat_true, Nat.one_mul, ← pow_add]
                congr 2; omega
          · rintro ⟨pre, post, h1, h2⟩
            have hcl : c ≠ [] := by
              intro hc
              subst hc
              have hm : (depth + 0, x) ∈ ua ++ ub := by rw [h1]; simp
              have : (depth + 0, x) ∈ (len, symbol) :: rest := by
                rw [A.split, B.split, ← List.append_assoc]; exact List.mem_append_left _ hm
              have := (hall _ this).1
              dsimp only at this; omega
            obtain ⟨v, c, rfl⟩ := List.exists_cons_of_ne_nil hcl
            rw [List.length_cons, show depth + (c.length + 1) = depth + 1 + c.length by omega] at h1 h2
            have hm : (depth + 1 + c.length, x) ∈ (len, symbol) :: rest := by
              rw [A.split, B.split, ← List.append_assoc, h1]; simp
            have hm := hall _ hm
            dsimp only at hm
            have hpow2 : 2 ^ c.length * 2 ^ (15 - (depth + 1 + c.length)) = 2 ^ (15 - (depth + 1)) := by
              rw [← pow_add]; congr 1; omega
            have hc := msb_lt c
            have hc' : msb c * 2 ^ (15 - (depth + 1 + c.length)) < 2 ^ (15 - (depth + 1)) := by
              rw [← hpow2]; exact Nat.mul_lt_mul_of_pos_right hc (by positivity)
            rw [msb_cons, Nat.add_mul, Nat.mul_assoc, hpow2] at h2
            rcases List.append_eq_append_iff.1 h1 with ⟨a', ha1, ha2⟩ | ⟨b', hb1, hb2⟩
            · -- in the second half
              have hv : v = true := by
                cases v with
                | true => rfl
                | false =>
                  have hw := hub (by rw [ha2]; simp)
                  rw [ha1, weight_append, hw] at h2
                  simp only [Bool.toNat_false, Nat.zero_mul, Nat.zero_add] at h2; omega
              subst hv
              refine .one ((B.path c x).2 ⟨a', post, ha2, ?_⟩)
              have hw := hub (by rw [ha2]; simp)
              rw [ha1, weight_append, hw] at h2
              simp only [Bool.toNat_true, Nat.one_mul] at h2; omega
            · cases b' with
              | nil =>
                simp only [List.nil_append, List.append_nil] at hb1 hb2
                have hw := hub (by rw [← hb2]; simp)
                have hv : v = true := by
                  cases v with
                  | true => rfl
                  | false =>
                    rw [← hb1, hw] at h2
                    simp only [Bool.toNat_false, Nat.zero_mul, Nat.zero_add] at h2; omega
                subst hv
                refine .one ((B.path c x).2 ⟨[], post, hb2.symm, ?_⟩)
                rw [← hb1, hw] at h2
                simp at h2
                simpa [weight] using h2
              | cons q b' =>
                simp only [List.cons_append, List.cons.injEq] at hb2
                obtain ⟨rfl, hb2⟩ := hb2
                have hw : weight pre < 2 ^ (15 - (depth + 1)) := by
                  have := A.le
                  rw [hb1, weight_append] at this
                  have := weight_pos (l := (depth + 1 + c.length, x) :: b') (by simp)
                  omega
                have hv : v = false := by
                  cases v with
                  | false => rfl
                  | true => simp only [Bool.toNat_true, Nat.one_mul] at h2; omega
                subst hv
                refine .zero ((A.path c x).2 ⟨pre, b', hb1, ?_⟩)
                simpa using h2

/-! ### the order of the codes -/

/-- The symbols with a code length. -/
def ofLength (lengths : List Nat) (len : Nat) : List (Nat × Nat) := lengths.zipIdx.filter fun p => p.1 = len

theorem byLength_eq (lengths : List Nat) : byLength lengths = (List.range 15).flatMap fun l => ofLength lengths (l + 1) := rfl

theorem mem_ofLength {lengths : List Nat} {len : Nat} {p : Nat × Nat} : p ∈ ofLength lengths len ↔ p.1 = len ∧ lengths[p.2]? = some p.1 := by
  obtain ⟨a, i⟩ := p
  rw [ofLength, List.mem_filter, List.mem_zipIdx_iff_getElem?]
  simp only [decide_eq_true_eq]; tauto

theorem mem_byLength {lengths : List Nat} {p : Nat × Nat} : p ∈ byLength lengths ↔ 1 ≤ p.1 ∧ p.1 ≤ 15 ∧ lengths[p.2]? = some p.1 := by
  rw [byLength_eq, List.mem_flatMap]
  constructor
  · rintro ⟨l, hl, h⟩
    rw [List.mem_range] at hl
    rw [mem_ofLength] at h
    exact ⟨by omega, by omega, h.2⟩
  · rintro ⟨h1, h2, h3⟩
    exact ⟨p.1 - 1, by rw [List.mem_range]; omega, mem_ofLength.2 ⟨by omega, h3⟩⟩

theorem byLength_sorted (lengths : List Nat) : (byLength lengths).Pairwise fun p q => p.1 ≤ q.1 := by
  rw [byLength_eq]
  have key : ∀ n, ((List.range n).flatMap fun l => ofLength lengths (l + 1)).Pairwise fun p q => p.1 ≤ q.1 := by
    intro n
    induction n with
    | zero => simp
    | succ n ih =>
      rw [List.range_succ, List.flatMap_append, List.pairwise_append]
      refine ⟨ih, ?_, ?_⟩
      · simp only [List.flatMap_cons, List.flatMap_nil, List.append_nil]
        refine List.pairwise_iff_forall_sublist.2 fun {p q} hpq => ?_
        have hp := hpq.subset (List.mem_cons_self)
        have hq := hpq.subset (List.mem_cons_of_mem _ List.mem_cons_self)
        rw [(mem_ofLength.1 hp).1, (mem_ofLength.1 hq).1]
      · intro p hp q hq
        simp only [List.flatMap_cons, List.flatMap_nil, List.append_nil] at hq
        obtain ⟨l, hl, h⟩ := List.mem_flatMap.1 hp
        rw [List.mem_range] at hl
        rw [(mem_ofLength.1 h).1, (mem_ofLength.1 hq).1]; omega
  exact key 15

theorem length_ofLength (lengths : List Nat) (len k : Nat) : ((lengths.zipIdx k).filter fun p => decide (p.1 = len)).length = lengths.count len := by
  induction lengths generalizing k with
  | nil => rfl
  | cons a l ih =>
    rw [List.zipIdx_cons, List.filter_cons, List.count_cons]
    by_cases h : a = len
    · subst h; simp [ih]
    · simp [h, ih]

theorem weight_ofLength {l : List (Nat × Nat)} {len : Nat} (h : ∀ p ∈ l, p.1 = len) : weight l = l.length * 2 ^ (15 - len) := by
  induction l with
  | nil => simp [weight]
  | cons p l ih =>
    rw [weight_cons, ih fun q hq => h q (by simp [hq]), h p (by simp), List.length_cons]; ring

/-- The space of the shorter codes is the first code of a length. -/
theorem weight_shorter (lengths : List Nat) (n : Nat) (hn : n ≤ 14) :
    weight ((List.range n).flatMap fun l => ofLength lengths (l + 1)) = nextCode lengths (n + 1) * 2 ^ (15 - (n + 1)) := by
  induction n with
  | zero => simp [weight, nextCode]
  | succ n ih =>
    rw [List.range_succ, List.flatMap_append, weight_append, ih (by omega)]
    simp only [List.flatMap_cons, List.flatMap_nil, List.append_nil]
    rw [weight_ofLength (fun p hp => (mem_ofLength.1 hp).1), ofLength, length_ofLength]
    conv_rhs => rw [nextCode]
    rw [if_neg (by omega), show 15 - (n + 1) = 15 - (n + 1 + 1) + 1 by omega, pow_succ]; ring

/-- Where a symbol stands. -/
theorem byLength_at {lengths : List Nat} {x len : Nat} (h : lengths[x]? = some len) (h1 : 1 ≤ len) (h2 : len ≤ 15) :
    ∃ pre post, byLength lengths = pre ++ (len, x) :: post ∧
      weight pre = (nextCode lengths len + (lengths.take x).count len) * 2 ^ (15 - len) := by
  obtain ⟨hx, hv⟩ := List.getElem?_eq_some_iff.1 h
  have hsplit : lengths = lengths.take x ++ len :: lengths.drop (x + 1) := by
    rw [← hv, List.getElem_cons_drop, List.take_append_drop]
  have ho : ofLength lengths len = ((lengths.take x).zipIdx.filter fun p => decide (p.1 = len)) ++ (len, x) ::
      (((lengths.drop (x + 1)).zipIdx (x + 1)).filter fun p => decide (p.1 = len)) := by
    rw [ofLength]
    conv_lhs => rw [hsplit]
    rw [List.zipIdx_append, List.filter_append, List.length_take, Nat.min_eq_left (by omega), List.zipIdx_cons, List.filter_cons]
    simp
  have hr : List.range 15 = List.range (len - 1) ++ (len - 1) :: ((List.range (15 - len)).map fun i => len + i) := by
    have : 15 = (len - 1) + (1 + (15 - len)) := by omega
    conv_lhs => rw [this]
    rw [List.range_add, List.range_add]
    simp only [List.range_one, List.map_cons, List.map_map, List.cons_append, List.nil_append]
    congr 2
    apply List.map_congr_left
    intro i _
    simp only [Function.comp_apply]; omega
  refine ⟨((List.range (len - 1)).flatMap fun l => ofLength lengths (l + 1)) ++ ((lengths.take x).zipIdx.filter fun p => decide (p.1 = len)),
    (((lengths.drop (x + 1)).zipIdx (x + 1)).filter fun p => decide (p.1 = len)) ++
      (((List.range (15 - len)).map fun i => len + i).flatMap fun l => ofLength lengths (l + 1)), ?_, ?_⟩
  · rw [byLength_eq, hr, List.flatMap_append, List.flatMap_cons, show len - 1 + 1 = len by omega, ho]
    simp
  · rw [weight_append, weight_shorter lengths (len - 1) (by omega), show len - 1 + 1 = len by omega,
      weight_ofLength (len := len) (fun p hp => by simpa using (List.mem_filter.1 hp).2), length_ofLength]
    ring

theorem byLength_nodup (lengths : List Nat) : (byLength lengths).Nodup := by
  rw [byLength_eq, List.nodup_flatMap]
  refine ⟨fun l _ => ?_, ?_⟩
  · exact List.Nodup.filter _ (List.Nodup.of_map Prod.snd (by
      rw [List.zipIdx_map_snd]; exact List.nodup_range'))
  · refine List.Pairwise.imp ?_ (List.nodup_range (n := 15))
    intro a b hab
    simp only [Function.onFun, List.disjoint_left]
    intro p hp hq
    have := (mem_ofLength.1 hp).1
    have := (mem_ofLength.1 hq).1
    omega

theorem split_unique {α : Type} {a b c d : List α} {x : α} (h : a ++ x :: b = c ++ x :: d) (hn : (a ++ x :: b).Nodup) : a = c := by
  induction a generalizing c with
  | nil =>
    cases c with
    | nil => rfl
    | cons y c =>
      simp only [List.nil_append, List.cons_append, List.cons.injEq] at h
      obtain ⟨rfl, h⟩ := h
      simp [h] at hn
  | cons y a ih =>
    cases c with
    | nil =>
      simp only [List.nil_append, List.cons_append, List.cons.injEq] at h
      obtain ⟨rfl, h⟩ := h
      simp at hn
    | cons z c =>
      simp only [List.cons_append, List.cons.injEq] at h
      obtain ⟨rfl, h⟩ := h
      rw [ih h (by simp only [List.cons_append, List.nodup_cons] at hn; exact hn.2)]

/-- The codes by position are the codes of the RFC. -/
theorem code_iff {lengths : List Nat} (hl : ∀ len ∈ lengths, len ≤ 15) (c : List Bool) (x : Nat) :
    (∃ pre post, byLength lengths = pre ++ (0 + c.length, x) :: post ∧ msb c * 2 ^ (15 - (0 + c.length)) = weight pre) ↔ IsCode lengths x c := by
  rw [Nat.zero_add]
  constructor
  · rintro ⟨pre, post, h, hw⟩
    have hm : (c.length, x) ∈ byLength lengths := by rw [h]; simp
    obtain ⟨h1, h2, h3⟩ := mem_byLength.1 hm
    obtain ⟨pre', post', h', hw'⟩ := byLength_at h3 h1 h2
    have hp : pre = pre' := split_unique (h.symm.trans h') (h ▸ byLength_nodup lengths)
    subst hp
    refine ⟨c.length, h3, by dsimp only at h1; omega, rfl, ?_⟩
    rw [hw'] at hw
    exact Nat.eq_of_mul_eq_mul_right (by positivity) hw
  · rintro ⟨len, h1, h2, rfl, h4⟩
    obtain ⟨pre, post, h, hw⟩ := byLength_at h1 (by omega) (hl _ (List.mem_of_getElem? h1))
    exact ⟨pre, post, h, by rw [h4, hw]⟩

/-! ### the space of the codes -/

theorem weight_byLength {lengths : List Nat} (hl : ∀ len ∈ lengths, len ≤ 15) : weight (byLength lengths) = space lengths := by
  have step : ∀ a : Nat, a ≤ 15 → ∀ k : Nat, weight (((List.range 15).flatMap fun l => if a = l + 1 then [(a, k)] else [])) =
      if a = 0 then 0 else 2 ^ (15 - a) := by
    intro a ha k
    have : ∀ l : Nat, weight (if a = l + 1 then [(a, k)] else []) = if a = l + 1 then 2 ^ (15 - a) else 0 := by
      intro l; split <;> simp [weight]
    have hsum : ∀ (ls : List Nat) (f : Nat → List (Nat × Nat)), weight (ls.flatMap f) = (ls.map fun l => weight (f l)).sum := by
      intro ls f
      induction ls with
      | nil => rfl
      | cons b ls ih => rw [List.flatMap_cons, weight_append, ih, List.map_cons, List.sum_cons]
    rw [hsum]
    simp only [this]
    interval_cases a <;> decide
  have key : ∀ (ls : List Nat) (k : Nat), (∀ len ∈ ls, len ≤ 15) →
      weight ((List.range 15).flatMap fun l => (ls.zipIdx k).filter fun p => decide (p.1 = l + 1)) = space ls := by
    intro ls
    induction ls with
    | nil => intro k _; rfl
    | cons a ls ih =>
      intro k h
      have e : ∀ ns : List Nat, weight (ns.flatMap fun l => ((a :: ls).zipIdx k).filter fun p => decide (p.1 = l + 1)) =
          weight (ns.flatMap fun l => if a = l + 1 then [(a, k)] else []) +
          weight (ns.flatMap fun l => (ls.zipIdx (k + 1)).filter fun p => decide (p.1 = l + 1)) := by
        intro ns
        induction ns with
        | nil => simp [weight]
        | cons n ns ih2 =>
          rw [List.flatMap_cons, List.flatMap_cons, List.flatMap_cons, weight_append, weight_append, weight_append, ih2,
            List.zipIdx_cons, List.filter_cons]
          by_cases hc : a = n + 1
          · rw [if_pos (by simpa using hc), if_pos hc, weight_cons]
            simp only [weight, List.map_cons, List.map_nil, List.sum_cons, List.sum_nil]; omega
          · rw [if_neg (by simpa using hc), if_neg hc]
            simp only [weight, List.map_nil, List.sum_nil]; omega
      rw [e, ih (k + 1) fun len hlen => h len (by simp [hlen]), step a (h a (by simp)) k, space, space, List.map_cons, List.sum_cons]
  exact key lengths 0 hl

theorem byLength_eq_nil {lengths : List Nat} (hl : ∀ len ∈ lengths, len ≤ 15) : byLength lengths = [] ↔ ∀ len ∈ lengths, len = 0 := by
  rw [List.eq_nil_iff_forall_not_mem]
  constructor
  · intro h len hm
    obtain ⟨i, hi⟩ := List.mem_iff_getElem?.1 hm
    have := h (len, i)
    rw [mem_byLength] at this
    by_contra hne
    exact this ⟨by dsimp only; omega, hl len hm, hi⟩
  · rintro h ⟨len, i⟩ hm
    obtain ⟨h1, _, h3⟩ := mem_byLength.1 hm
    have := h len (List.mem_of_getElem? h3)
    dsimp only at h1; omega

theorem byLength_single {lengths : List Nat} (hl : ∀ len ∈ lengths, len ≤ 15) :
    (∃ x, byLength lengths = [(1, x)]) ↔ ∃ n k, lengths = List.replicate n 0 ++ 1 :: List.replicate k 0 := by
  constructor
  · rintro ⟨x, h⟩
    have hm : (1, x) ∈ byLength lengths := by rw [h]; simp
    have hx := (mem_byLength.1 hm).2.2
    dsimp only at hx
    have huniq : ∀ (i len : Nat), lengths[i]? = some len → i ≠ x → len = 0 := by
      intro i len hi hne
      by_contra hz
      have : (len, i) ∈ byLength lengths := mem_byLength.2 ⟨by dsimp only; omega, hl _ (List.mem_of_getElem? hi), hi⟩
      rw [h] at this
      simp at this
      exact hne this.2
    obtain ⟨hlt, hv⟩ := List.getElem?_eq_some_iff.1 hx
    refine ⟨x, lengths.length - (x + 1), ?_⟩
    have e1 : lengths.take x = List.replicate x 0 := by
      rw [List.eq_replicate_iff]
      refine ⟨by rw [List.length_take]; omega, fun b hb => ?_⟩
      obtain ⟨i, hi, hb⟩ := List.mem_take_iff_getElem.1 hb
      exact huniq i b (List.getElem?_eq_some_iff.2 ⟨by omega, hb⟩) (by omega)
    have e2 : lengths.drop (x + 1) = List.replicate (lengths.length - (x + 1)) 0 := by
      rw [List.eq_replicate_iff]
      refine ⟨by rw [List.length_drop], fun b hb => ?_⟩
      obtain ⟨i, hi, hb⟩ := List.mem_drop_iff_getElem.1 hb
      exact huniq (x + 1 + i) b (List.getElem?_eq_some_iff.2 ⟨by omega, hb⟩) (by omega)
    rw [← e1, ← e2]
    conv_lhs => rw [← List.take_append_drop x lengths, List.drop_eq_getElem_cons hlt, hv]
  · rintro ⟨n, k, rfl⟩
    refine ⟨n, ?_⟩
    have hm : ∀ p, p ∈ byLength (List.replicate n 0 ++ 1 :: List.replicate k 0) → p = (1, n) := by
      rintro ⟨len, i⟩ hp
      obtain ⟨h1, _, h3⟩ := mem_byLength.1 hp
      dsimp only at h1 h3
      rw [List.getElem?_append] at h3
      split at h3
      · rename_i hlt
        rw [List.getElem?_replicate] at h3
        split at h3 <;> simp at h3
        omega
      · rename_i hge
        rw [List.length_replicate] at h3 hge
        rcases Nat.eq_zero_or_pos (i - n) with h0 | h0
        · rw [h0] at h3
          simp at h3
          rw [← h3, show i = n by omega]
        · rw [show i - n = (i - n - 1) + 1 by omega, List.getElem?_cons_succ, List.getElem?_replicate] at h3
          split at h3 <;> simp at h3
          omega
    have hin : (1, n) ∈ byLength (List.replicate n 0 ++ 1 :: List.replicate k 0) := by
      refine mem_byLength.2 ⟨Nat.le_refl _, by dsimp only; omega, ?_⟩
      dsimp only
      rw [List.getElem?_append_right (by simp)]; simp
    have hnd := byLength_nodup (List.replicate n 0 ++ 1 :: List.replicate k 0)
    revert hm hin hnd
    generalize byLength (List.replicate n 0 ++ 1 :: List.replicate k 0) = L
    intro hm hin hnd
    match L, hm, hin, hnd with
    | [], _, hin, _ => simp at hin
    | [p], hm, _, _ => rw [hm p (by simp)]
    | p :: q :: L, hm, _, hnd =>
      have h1 := hm p (by simp)
      have h2 := hm q (by simp)
      rw [h1, h2] at hnd
      simp at hnd

/-! ### all together -/

/-- The prefix codes of the model are those of the RFC. -/
theorem huffman_path {lengths : List Nat} (hl : ∀ len ∈ lengths, len ≤ 15) {t : Tree} (h : huffman lengths = some t) (c : List Bool) (x : Nat) :
    Path t c x ↔ IsCode lengths x c := by
  rw [← code_iff hl, huffman] at *
  split at h
  · rename_i hb
    simp only [Option.some.injEq] at h
    subst h
    rw [hb]
    constructor
    · intro h; exact absurd h (path_empty c x)
    · rintro ⟨pre, post, h, _⟩; simp at h
  · rename_i y hb
    simp only [Option.some.injEq] at h
    subst h
    rw [hb]
    constructor
    · intro h
      cases h with
      | zero h => cases h; exact ⟨[], [], rfl, by simp [weight, msb]⟩
      | one h => exact absurd h (path_empty _ x)
    · rintro ⟨pre, post, h, hw⟩
      cases pre with
      | cons q pre => simp at h
      | nil =>
        simp only [List.nil_append, List.cons.injEq, Prod.mk.injEq] at h
        obtain ⟨⟨h1, rfl⟩, _⟩ := h
        match c, h1 with
        | [v], _ =>
          cases v with
          | false => exact .zero (.leaf _)
          | true => simp [msb, weight] at hw
  · obtain ⟨used, B⟩ := buildTree_built 16 0 rfl (by decide) (byLength lengths) (byLength_sorted lengths)
      fun p hp => ⟨Nat.zero_le _, (mem_byLength.1 hp).2.1⟩
    dsimp only at h
    split at h
    · rename_i hc
      simp only [Option.some.injEq] at h
      subst h
      rw [B.path, B.split.trans (by rw [hc.1, List.append_nil])]
    · simp at h

/-- A code is accepted exactly if its lengths are usable. -/
theorem huffman_some {lengths : List Nat} (hl : ∀ len ∈ lengths, len ≤ 15) : (huffman lengths).isSome = true ↔ Usable lengths := by
  rw [Usable, ← byLength_eq_nil hl, ← byLength_single hl, ← weight_byLength hl, huffman]
  split
  · rename_i hb
    simp [hb]
  · rename_i y hb
    simp [hb]
  · rename_i h0 h1
    obtain ⟨used, B⟩ := buildTree_built 16 0 rfl (by decide) (byLength lengths) (byLength_sorted lengths)
      fun p hp => ⟨Nat.zero_le _, (mem_byLength.1 hp).2.1⟩
    dsimp only
    split
    · rename_i hc
      have := B.full.1 hc.2
      rw [B.split.trans (by rw [hc.1, List.append_nil])]
      simp [this]
    · rename_i hc
      simp only [Option.isSome_none, Bool.false_eq_true, false_iff]
      rintro (h | h | ⟨x, h⟩)
      · apply hc
        have hr : (buildTree 16 0 (byLength lengths)).2 = [] := by
          by_contra hne
          have h1 := B.full.1 (B.left hne)
          have h2 := weight_pos hne
          rw [B.split, weight_append] at h
          omega
        refine ⟨hr, B.full.2 ?_⟩
        rw [B.split, hr, List.append_nil] at h
        exact h
      · exact h0 h
      · exact h1 x h

end Verif.Lemmas.Deflate
