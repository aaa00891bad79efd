import Verif.Spec.EscOpen
import Mathlib.Data.List.Basic
import Mathlib.Algebra.BigOperators.Group.List.Basic
/-
C64: opened files and the exported functions for embedded files.
-/
set_option autoImplicit false

namespace Verif.Props
open Verif.Model.EscOpen Verif.Spec.EscOpen
open Verif.Model.Esc (EscFile Err)

/-- For the concrete cases: files `a` (three bytes) and `b` (one byte that fails to decode). -/
def toy : Env where
  escData k := if k = "a" then some ⟨3, none, ([1, 2, 3], none)⟩ else if k = "b" then some ⟨5, none, ([7], some (.other "x"))⟩ else none
  isDir _ := false
  modtime _ := 9
  clean := id
  base := id

/-! ### What the operations change -/

theorem prepare_done {env : Env} {s : State} {name : String} {k : String} (h : (s.file k).done = true) :
    (prepare env s name).1.file k = s.file k := by
  unfold prepare
  simp only
  split
  · rfl
  · split
    · rfl
    · rename_i hd
      have hk : env.clean name ≠ k := by rintro rfl; exact hd h
      split <;> simp [State.setFile, Ne.symm hk]

theorem prepare_rest (env : Env) (s : State) (name : String) :
    (prepare env s name).1.handles = s.handles ∧ (prepare env s name).1.slices = s.slices := by
  unfold prepare
  simp only
  split
  · exact ⟨rfl, rfl⟩
  · split
    · exact ⟨rfl, rfl⟩
    · split <;> exact ⟨rfl, rfl⟩

theorem openFile_state (env : Env) (s : State) (name : String) :
    ((openFile env s name).1.file = (prepare env s name).1.file) ∧
    ∃ l, (openFile env s name).1.handles = s.handles ++ l := by
  have h := prepare_rest env s name
  unfold openFile
  split
  · rename_i e
    rw [e] at h ⊢
    exact ⟨rfl, [], by simpa using h.1⟩
  · rename_i e
    rw [e] at h ⊢
    exact ⟨rfl, _, by rw [← h.1]⟩

theorem fsByte_state (env : Env) (s : State) (name : String) :
    ((fsByte env s name).1.file = (prepare env s name).1.file) ∧ (fsByte env s name).1.handles = s.handles := by
  have h := prepare_rest env s name
  unfold fsByte
  split <;> rename_i e <;> rw [e] at h ⊢ <;> exact ⟨rfl, h.1⟩

theorem fsString_state (env : Env) (s : State) (name : String) :
    ((fsString env s name).1.file = (prepare env s name).1.file) ∧ (fsString env s name).1.handles = s.handles := by
  have h := prepare_rest env s name
  unfold fsString
  split <;> rename_i e <;> rw [e] at h ⊢ <;> exact ⟨rfl, h.1⟩

theorem must_state (r : State × Res) : (must r).1 = r.1 := by
  rcases r with ⟨s, _ | _ | _ | _ | _ | _ | _ | _ | _⟩ <;> rfl

theorem getElem?_open {l l' : List Handle} {h : Nat} {x : Handle} (e : l[h]? = some x) : (l ++ l')[h]? = some x := by
  rw [List.getElem?_append_left (List.getElem?_eq_some_iff.1 e).1]; exact e

/-- An operation that is neither one on the handle nor a store leaves the handle and its file alone. -/
theorem step_other {env : Env} {s : State} {op : Op} {h : Nat} {k : String} {p : Int} (ho : OpenAt s h k p)
    (h1 : isOn h op = false) (h2 : isStore op = false) :
    OpenAt (step env s op).1 h k p ∧ (step env s op).1.file k = s.file k := by
  obtain ⟨ho, hd⟩ := ho
  have opn : ∀ name, OpenAt (openFile env s name).1 h k p ∧ (openFile env s name).1.file k = s.file k := by
    intro name
    obtain ⟨e1, l, e2⟩ := openFile_state env s name
    have e3 : (openFile env s name).1.file k = s.file k := by rw [e1]; exact prepare_done hd
    refine ⟨⟨?_, by rw [e3]; exact hd⟩, e3⟩
    rw [e2]; exact getElem?_open ho
  have byt : ∀ name, OpenAt (fsByte env s name).1 h k p ∧ (fsByte env s name).1.file k = s.file k := by
    intro name
    obtain ⟨e1, e2⟩ := fsByte_state env s name
    have e3 : (fsByte env s name).1.file k = s.file k := by rw [e1]; exact prepare_done hd
    exact ⟨⟨by rw [e2]; exact ho, by rw [e3]; exact hd⟩, e3⟩
  have str : ∀ name, OpenAt (fsString env s name).1 h k p ∧ (fsString env s name).1.file k = s.file k := by
    intro name
    obtain ⟨e1, e2⟩ := fsString_state env s name
    have e3 : (fsString env s name).1.file k = s.file k := by rw [e1]; exact prepare_done hd
    exact ⟨⟨by rw [e2]; exact ho, by rw [e3]; exact hd⟩, e3⟩
  have set : ∀ h' x, h' ≠ h → (s.handles.set h' x)[h]? = some ⟨k, p⟩ := by
    intro h' x hne
    rw [List.getElem?_set_ne hne]; exact ho
  cases op with
  | openFile name => exact opn name
  | openIn dir name => exact opn _
  | read h' n =>
    have hne : h' ≠ h := by simpa [isOn] using h1
    simp only [step]
    split
    · exact ⟨⟨ho, hd⟩, rfl⟩
    · exact ⟨⟨set _ _ hne, hd⟩, rfl⟩
  | seek h' a b =>
    have hne : h' ≠ h := by simpa [isOn] using h1
    simp only [step]
    split
    · exact ⟨⟨ho, hd⟩, rfl⟩
    · exact ⟨⟨set _ _ hne, hd⟩, rfl⟩
  | stat h' =>
    simp only [step]
    split <;> exact ⟨⟨ho, hd⟩, rfl⟩
  | readdir h' n => exact ⟨⟨ho, hd⟩, rfl⟩
  | close h' => exact ⟨⟨ho, hd⟩, rfl⟩
  | fsByte name => exact byt name
  | fsMustByte name =>
    rw [step, must_state]
    exact byt name
  | fsString name => exact str name
  | fsMustString name =>
    rw [step, must_state]
    exact str name
  | store j i b => exact absurd h2 (by simp [isStore])

/-- An operation on the handle has the same result and effect in two states that agree on the handle and its file. -/
theorem step_on {env : Env} {s t : State} {op : Op} {h : Nat} {k : String} {p : Int} (hs : OpenAt s h k p)
    (ht : OpenAt t h k p) (hf : s.file k = t.file k) (h1 : isOn h op = true) :
    (step env s op).2 = (step env t op).2 ∧ ∃ q, OpenAt (step env s op).1 h k q ∧ OpenAt (step env t op).1 h k q ∧
      (step env s op).1.file k = (step env t op).1.file k := by
  have hs' := hs.1
  have ht' := ht.1
  have set : ∀ (u : State) (q : Int), OpenAt u h k p →
      OpenAt { u with handles := u.handles.set h ⟨k, q⟩ } h k q := by
    intro u q hu
    refine ⟨?_, hu.2⟩
    have := (List.getElem?_eq_some_iff.1 hu.1).1
    simp [this]
  cases op with
  | read h' n =>
    have e : h' = h := by simpa [isOn] using h1
    subst e
    simp only [step, hs', ht', hf]
    exact ⟨trivial, _, set s _ hs, set t _ ht, trivial⟩
  | seek h' a b =>
    have e : h' = h := by simpa [isOn] using h1
    subst e
    simp only [step, hs', ht', hf]
    exact ⟨trivial, _, set s _ hs, set t _ ht, trivial⟩
  | stat h' =>
    have e : h' = h := by simpa [isOn] using h1
    subst e
    simp only [step, hs', ht', hf]
    exact ⟨trivial, p, hs, ht, trivial⟩
  | readdir h' n => exact ⟨rfl, p, hs, ht, hf⟩
  | close h' => exact ⟨rfl, p, hs, ht, hf⟩
  | openFile _ | openIn _ _ | fsByte _ | fsMustByte _ | fsString _ | fsMustString _ | store _ _ _ =>
    exact absurd h1 (by simp [isOn])

/-- C64: an opened file is private to its user. Whatever else happens in between, apart from stores into slices got from
`FSByte`, the operations on a handle give the results they give when nothing else happens. -/
theorem c64_private (env : Env) (s : State) (h : Nat) (k : String) (p : Int) (ho : OpenAt s h k p) (ops : List Op)
    (hq : ∀ op ∈ ops, isStore op = false) :
    resultsOn h ops (run env s ops).2 = (run env s (ops.filter (isOn h))).2 := by
  suffices H : ∀ (ops : List Op) (s t : State) (p : Int), (∀ op ∈ ops, isStore op = false) → OpenAt s h k p →
      OpenAt t h k p → s.file k = t.file k →
      resultsOn h ops (run env s ops).2 = (run env t (ops.filter (isOn h))).2 from H ops s s p hq ho ho rfl
  intro ops
  induction ops with
  | nil => intros; rfl
  | cons op ops ih =>
    intro s t p hq hs ht hf
    have hq' : ∀ op ∈ ops, isStore op = false := fun o h' => hq o (by simp [h'])
    by_cases h1 : isOn h op = true
    · obtain ⟨e, q, a, b, c⟩ := step_on (env := env) hs ht hf h1
      have := ih _ _ q hq' a b c
      rw [List.filter_cons_of_pos h1]
      simp only [run, resultsOn, List.zip_cons_cons, List.filter_cons, h1, if_true, List.map_cons]
      rw [← this, e]; rfl
    · have h1 : isOn h op = false := by simpa using h1
      have h2 := step_other (env := env) hs h1 (hq op (by simp))
      have := ih _ t p hq' h2.1 ht (by rw [h2.2, hf])
      rw [List.filter_cons_of_neg (by simp [h1])]
      rw [← this]
      simp [run, resultsOn, h1]

/-- C64: handle 0 after it is opened, with another handle in between. -/
example : let s := (run toy {} [.openFile "a", .openFile "a"]).1
    OpenAt s 0 "a" 0 ∧ resultsOn 0 [.read 0 1, .read 1 3, .read 0 1] (run toy s [.read 0 1, .read 1 3, .read 0 1]).2 = [.bytes [1], .bytes [2]] := by
  exact ⟨⟨rfl, by decide +kernel⟩, by decide +kernel⟩

/-! ### Reading -/

theorem read_step {env : Env} {s : State} {h : Nat} {k : String} {p : Int} (ho : OpenAt s h k p) (n : Nat) :
    step env s (.read h n) = ({ s with handles := s.handles.set h ⟨k, (readAt (s.file k).data p n).1⟩ },
      (readAt (s.file k).data p n).2) := by
  simp only [step, ho.1]

theorem set_open {s : State} {h : Nat} {k : String} {p : Int} (ho : OpenAt s h k p) (q : Int) :
    OpenAt { s with handles := s.handles.set h ⟨k, q⟩ } h k q := by
  refine ⟨?_, ho.2⟩
  have := (List.getElem?_eq_some_iff.1 ho.1).1
  simp [this]

/-- The position after a read. -/
theorem readAt_eq (d : List UInt8) (p n : Nat) :
    readAt d p n = (if d.length ≤ p then ((p : Int), Res.eof) else
      (((p + min n (d.length - p) : Nat) : Int), .bytes ((d.drop p).take n))) := by
  unfold readAt
  by_cases h : d.length ≤ p
  · rw [if_pos h, if_pos (by omega)]
  · rw [if_neg h, if_neg (by omega)]
    simp

/-- C64: reads one after the other give consecutive pieces of the file, whatever the sizes of the buffers; together they are
the bytes from the position on, as many as the buffers hold. A read says that the file has ended exactly when the buffers
before it could hold all that was left. -/
theorem c64_read (env : Env) (s : State) (h : Nat) (k : String) (p : Nat) (ho : OpenAt s h k p) (ns : List Nat) :
    ((run env s (ns.map (.read h))).2.map bytesOf).flatten = ((s.file k).data.drop p).take ns.sum ∧
    ∀ i < ns.length, ((run env s (ns.map (.read h))).2[i]? = some .eof ↔
      (s.file k).data.length ≤ p + (ns.take i).sum) := by
  induction ns generalizing s p with
  | nil => simp [run]
  | cons n ns ih =>
    rw [List.map_cons, run]
    simp only
    rw [read_step ho, readAt_eq]
    have ih' : ∀ q : Nat, _ := fun q => ih { s with handles := s.handles.set h ⟨k, (q : Int)⟩ } q (set_open ho _)
    simp only at ih'
    generalize s.file k = f at *
    by_cases hp : f.data.length ≤ p
    · rw [if_pos hp]
      simp only
      obtain ⟨i1, i2⟩ := ih' p
      refine ⟨?_, ?_⟩
      · rw [List.map_cons, List.flatten_cons, i1]
        simp [bytesOf, List.drop_eq_nil_of_le hp]
      · intro i hi
        constructor
        · intro; omega
        · intro
          cases i with
          | zero => rfl
          | succ i =>
            rw [List.getElem?_cons_succ]
            refine (i2 i (by simpa using hi)).2 (by omega)
    · rw [if_neg hp]
      simp only
      obtain ⟨i1, i2⟩ := ih' (p + min n (f.data.length - p))
      refine ⟨?_, ?_⟩
      · rw [List.map_cons, List.flatten_cons, i1]
        show (f.data.drop p).take n ++ _ = _
        rw [List.sum_cons, List.take_add, List.drop_drop]
        congr 1
        by_cases hn : n ≤ f.data.length - p
        · rw [Nat.min_eq_left hn]
        · rw [List.drop_eq_nil_of_le (by omega), List.drop_eq_nil_of_le (by omega)]
      · intro i hi
        cases i with
        | zero => simp; omega
        | succ i =>
          rw [List.getElem?_cons_succ, i2 i (by simpa using hi), List.take_succ_cons, List.sum_cons]
          omega

/-- C64: three reads of two, one and one bytes. -/
example : let s := (run toy {} [.openFile "a"]).1
    OpenAt s 0 "a" (0 : Nat) ∧ (run toy s ([2, 1, 1].map (.read 0))).2 = [.bytes [1, 2], .bytes [3], .eof] := by
  exact ⟨⟨rfl, by decide +kernel⟩, by decide +kernel⟩

/-- C64: `Seek` sets the position from the start, from where it is or from the end; a negative position or another
reference is refused and moves nothing. -/
theorem c64_seek (env : Env) (s : State) (h : Nat) (k : String) (p : Int) (ho : OpenAt s h k p) (offset whence : Int) :
    let target : Option Int := if whence = 0 then some offset else if whence = 1 then some (p + offset)
      else if whence = 2 then some ((s.file k).data.length + offset) else none
    let r := step env s (.seek h offset whence)
    (∀ q, target = some q → 0 ≤ q → r.2 = .position q ∧ OpenAt r.1 h k q ∧ r.1.file = s.file) ∧
    ((target = none ∨ ∃ q, target = some q ∧ q < 0) → (∃ e, r.2 = .error e) ∧ OpenAt r.1 h k p ∧ r.1.file = s.file) := by
  intro target r
  have hr : r = ({ s with handles := s.handles.set h ⟨k, (seekTo (s.file k).data p offset whence).1⟩ },
      (seekTo (s.file k).data p offset whence).2) := by
    show step env s (.seek h offset whence) = _
    simp only [step, ho.1]
  have ht : seekTo (s.file k).data p offset whence = (match target with
      | none => (p, .error (.other "bytes.Reader.Seek: invalid whence"))
      | some a => if a < 0 then (p, .error (.other "bytes.Reader.Seek: negative position")) else (a, .position a)) := rfl
  rw [hr, ht]
  refine ⟨?_, ?_⟩
  · intro q hq h0
    rw [hq]
    simp only [if_neg (Int.not_lt.2 h0)]
    exact ⟨trivial, set_open ho q, trivial⟩
  · rintro (hq | ⟨q, hq, h0⟩)
    · rw [hq]
      exact ⟨⟨_, rfl⟩, set_open ho p, rfl⟩
    · rw [hq]
      simp only [if_pos h0]
      exact ⟨⟨_, rfl⟩, set_open ho p, trivial⟩

/-- C64: to the last byte but one, beyond the end and before the beginning. -/
example : let s := (run toy {} [.openFile "a"]).1
    (step toy s (.seek 0 (-1) 2)).2 = .position 2 ∧ (step toy s (.seek 0 10 0)).2 = .position 10 ∧
    (step toy s (.seek 0 (-1) 1)).2 = .error (.other "bytes.Reader.Seek: negative position") := by decide +kernel

/-! ### The shared data -/

/-- A file that was asked for: name and data. -/
theorem step_file (env : Env) (s : State) (op : Op) (k : String) (e : EscFile) (he : env.escData k = some e) :
    ((s.file k).done = true → (step env s op).1.file k = s.file k ∨ isStore op = true) ∧
    ((s.file k).done = false → (∀ name, asked op = some name → env.clean name ≠ k) → isStore op = false →
      (step env s op).1.file k = s.file k) ∧
    ((s.file k).done = false → ∀ name, asked op = some name → env.clean name = k →
      (step env s op).1.file k = ⟨true, (decode e).1, env.base name⟩) := by
  have prep : ∀ name, ((s.file k).done = true → (prepare env s name).1.file k = s.file k) ∧
      ((s.file k).done = false → env.clean name ≠ k → (prepare env s name).1.file k = s.file k) ∧
      ((s.file k).done = false → env.clean name = k →
        (prepare env s name).1.file k = ⟨true, (decode e).1, env.base name⟩) := by
    intro name
    refine ⟨prepare_done, ?_, ?_⟩
    · intro _ hk
      unfold prepare
      simp only
      split
      · rfl
      · split
        · rfl
        · split <;> simp [State.setFile, Ne.symm hk]
    · intro hd hk
      unfold prepare
      simp only [hk, he, hd]
      simp only [Bool.false_eq_true, if_false]
      split <;> simp [State.setFile]
  have opn : ∀ name, (openFile env s name).1.file k = (prepare env s name).1.file k := fun name => by
    rw [(openFile_state env s name).1]
  have byt : ∀ name, (fsByte env s name).1.file k = (prepare env s name).1.file k := fun name => by
    rw [(fsByte_state env s name).1]
  have str : ∀ name, (fsString env s name).1.file k = (prepare env s name).1.file k := fun name => by
    rw [(fsString_state env s name).1]
  have ask : ∀ name, asked op = some name → (step env s op).1.file k = (prepare env s name).1.file k := by
    intro name ha
    cases op <;> simp only [asked, Option.some.injEq, reduceCtorEq] at ha <;> subst ha <;> simp only [step, must_state, opn, byt, str]
  have non : asked op = none → isStore op = false → (step env s op).1.file k = s.file k := by
    intro ha hst
    cases op <;> simp only [asked, reduceCtorEq] at ha <;> simp only [isStore, Bool.true_eq_false] at hst <;>
      simp only [step] <;> (try split) <;> rfl
  cases ha : asked op with
  | none =>
    cases hst : isStore op with
    | true => exact ⟨fun _ => .inr rfl, fun _ _ h => absurd h (by simp), fun _ name h => absurd h (by simp)⟩
    | false =>
      have := non ha hst
      exact ⟨fun _ => .inl this, fun _ _ _ => this, fun _ name h => absurd h (by simp)⟩
  | some name =>
    have ha' := ask name ha
    refine ⟨fun hd => .inl (by rw [ha']; exact (prep name).1 hd), fun hd hn _ => ?_, fun hd n hn hk => ?_⟩
    · rw [ha']; exact (prep name).2.1 hd (hn name rfl)
    · cases hn
      rw [ha']; exact (prep name).2.2 hd hk

/-- C64: the name `Stat` reports is the last part of the first name by which anybody asked for the file, and the contents
are the decoded ones, as long as nobody stores into a slice got from `FSByte`. -/
theorem c64_first (env : Env) (before after : List Op) (op : Op) (name : String) (e : EscFile)
    (he : env.escData (env.clean name) = some e) (ha : asked op = some name)
    (hb : ∀ o ∈ before, ∀ n, asked o = some n → env.clean n ≠ env.clean name)
    (hq : ∀ o ∈ before ++ op :: after, isStore o = false) :
    ((run env {} (before ++ op :: after)).1.file (env.clean name)) = ⟨true, (decode e).1, env.base name⟩ := by
  have run_append : ∀ (l l' : List Op) (s : State), (run env s (l ++ l')).1 = (run env (run env s l).1 l').1 := by
    intro l
    induction l with
    | nil => intros; rfl
    | cons o l ih => intro l' s; simp only [List.cons_append, run]; exact ih _ _
  have h1 : ∀ (l : List Op) (s : State), (∀ o ∈ l, ∀ n, asked o = some n → env.clean n ≠ env.clean name) →
      (∀ o ∈ l, isStore o = false) → (s.file (env.clean name)).done = false →
      (run env s l).1.file (env.clean name) = s.file (env.clean name) := by
    intro l
    induction l with
    | nil => intros; rfl
    | cons o l ih =>
      intro s hb hq hd
      have := (step_file env s o (env.clean name) e he).2.1 hd (hb o (by simp)) (hq o (by simp))
      simp only [run]
      rw [ih _ (fun o h => hb o (by simp [h])) (fun o h => hq o (by simp [h])) (by rw [this]; exact hd), this]
  have h2 : ∀ (l : List Op) (s : State), (∀ o ∈ l, isStore o = false) → (s.file (env.clean name)).done = true →
      (run env s l).1.file (env.clean name) = s.file (env.clean name) := by
    intro l
    induction l with
    | nil => intros; rfl
    | cons o l ih =>
      intro s hq hd
      have := (step_file env s o (env.clean name) e he).1 hd
      rw [hq o (by simp)] at this
      have := this.resolve_right (by simp)
      simp only [run]
      rw [ih _ (fun o h => hq o (by simp [h])) (by rw [this]; exact hd), this]
  rw [run_append]
  simp only [run]
  have hs := h1 before {} hb (fun o h => hq o (by simp [h])) rfl
  have h3 := (step_file env (run env {} before).1 op (env.clean name) e he).2.2 (by rw [hs]) name ha rfl
  rw [h2 after _ (fun o h => hq o (by simp [h])) (by rw [h3]), h3]

/-- C64: file `a` after others were asked for, in the middle of a run. -/
example : ((run toy {} ([.fsByte "b", .fsString "c"] ++ .openFile "a" :: [.read 0 2, .fsByte "a"])).1.file "a") = ⟨true, [1, 2, 3], "a"⟩ :=
  c64_first toy [.fsByte "b", .fsString "c"] [.read 0 2, .fsByte "a"] (.openFile "a") "a" _ rfl rfl (by simp [asked, toy]) (by simp [isStore])

/-- What a function that asks for a file returns, from the state after asking. -/
theorem asked_result (env : Env) (s : State) (name : String) :
    (∀ x, (prepare env s name).2 = .inl x → (step env s (.fsByte name)).2 = .error x ∧
      (step env s (.fsString name)).2 = .error x ∧ (step env s (.openFile name)).2 = .error x ∧
      (step env s (.fsMustByte name)).2 = .panics ∧ (step env s (.fsMustString name)).2 = .panics) ∧
    (∀ k, (prepare env s name).2 = .inr k → k = env.clean name ∧
      (step env s (.fsByte name)).2 = .slice s.slices.length ((prepare env s name).1.file k).data ∧
      (step env s (.fsByte name)).1.slices[s.slices.length]? = some k ∧
      (step env s (.fsString name)).2 = .bytes ((prepare env s name).1.file k).data ∧
      (step env s (.openFile name)).2 = .handle s.handles.length ∧
      OpenAt (step env s (.openFile name)).1 s.handles.length k 0 ∧
      (step env s (.fsMustByte name)).2 = .slice s.slices.length ((prepare env s name).1.file k).data ∧
      (step env s (.fsMustString name)).2 = .bytes ((prepare env s name).1.file k).data) := by
  have hr := prepare_rest env s name
  have hd : ∀ k, (prepare env s name).2 = .inr k → ((prepare env s name).1.file k).done = true ∧ k = env.clean name := by
    intro k
    unfold prepare
    simp only
    split
    · intro h; cases h
    · split
      · rename_i h1; intro h; cases h; exact ⟨h1, rfl⟩
      · split
        · intro h; cases h
        · intro h; cases h; exact ⟨by simp [State.setFile], rfl⟩
  refine ⟨?_, ?_⟩
  · intro x hx
    simp only [step, fsByte, fsString, openFile]
    split <;> rename_i e <;> rw [e] at hx
    · cases hx; exact ⟨rfl, rfl, rfl, rfl, rfl⟩
    · cases hx
  · intro k hk
    have hd := hd k hk
    simp only [step, fsByte, fsString, openFile]
    split <;> rename_i e <;> rw [e] at hk hr hd ⊢
    · cases hk
    · cases hk
      simp only at hr hd ⊢
      rw [hr.1, hr.2]
      refine ⟨hd.2, ?_, by simp, ?_, ?_, ⟨by simp, hd.1⟩, rfl, rfl⟩ <;> first | rfl | trivial

/-- C64: `FSMustByte` and `FSMustString` panic exactly where `FSByte` and `FSString` return an error, and otherwise return
the same; `FSString` fails exactly where `FSByte` does. -/
theorem c64_must (env : Env) (s : State) (name : String) :
    ((step env s (.fsMustByte name)).2 = .panics ↔ ∃ x, (step env s (.fsByte name)).2 = .error x) ∧
    ((step env s (.fsMustString name)).2 = .panics ↔ ∃ x, (step env s (.fsString name)).2 = .error x) ∧
    ((∃ x, (step env s (.fsString name)).2 = .error x) ↔ ∃ x, (step env s (.fsByte name)).2 = .error x) ∧
    bytesOf (step env s (.fsMustByte name)).2 = bytesOf (step env s (.fsByte name)).2 ∧
    bytesOf (step env s (.fsMustString name)).2 = bytesOf (step env s (.fsByte name)).2 ∧
    bytesOf (step env s (.fsString name)).2 = bytesOf (step env s (.fsByte name)).2 := by
  have h := asked_result env s name
  cases e : (prepare env s name).2 with
  | inl x =>
    obtain ⟨h1, h2, h3, h4, h5⟩ := h.1 x e
    rw [h1, h2, h4, h5]
    simp [bytesOf]
  | inr k =>
    obtain ⟨h0, h1, h2, h3, h4, h5, h6, h7⟩ := h.2 k e
    rw [h1, h3, h6, h7]
    simp [bytesOf]

/-- C64: `FSByte` hands out the data itself. A store into the slice changes what every later reader of the file gets, and
nothing else. -/
theorem c64_store (env : Env) (s : State) (j i : Nat) (b : UInt8) (k : String) (hj : s.slices[j]? = some k)
    (hi : i < (s.file k).data.length) (hd : (s.file k).done = true) (he : env.escData k ≠ none) (name : String)
    (hn : env.clean name = k) :
    let t := (step env s (.store j i b)).1
    (step env t (.fsString name)).2 = .bytes ((s.file k).data.set i b) ∧
    (step env t (.fsByte name)).2 = .slice s.slices.length ((s.file k).data.set i b) ∧
    (∀ h p n, OpenAt s h k p → (step env t (.read h n)).2 = (readAt ((s.file k).data.set i b) p n).2) ∧
    ∀ k', k' ≠ k → t.file k' = s.file k' := by
  intro t
  have ht : t = s.setFile k { s.file k with data := (s.file k).data.set i b } := by
    show (step env s (.store j i b)).1 = _
    simp only [step, hj, if_pos hi]
  have hf : t.file k = { s.file k with data := (s.file k).data.set i b } := by rw [ht]; simp [State.setFile]
  have hp : prepare env t name = (t, .inr k) := by
    obtain ⟨e, he⟩ := Option.ne_none_iff_exists'.1 he
    unfold prepare
    simp only [hn, he]
    rw [if_pos (by rw [hf]; exact hd)]
  have h := (asked_result env t name).2 k (by rw [hp])
  rw [hp] at h
  refine ⟨?_, ?_, ?_, ?_⟩
  · rw [h.2.2.2.1, hf]
  · rw [h.2.1, hf, ht]; rfl
  · intro h' p n ho
    have : OpenAt t h' k p := ⟨by rw [ht]; exact ho.1, by rw [hf]; exact hd⟩
    rw [read_step this, hf]
  · intro k' hk; rw [ht]; simp [State.setFile, hk]

/-- C64: a state in which it applies: a slice of `a` is held. -/
example : let s := (run toy {} [.fsByte "a"]).1
    s.slices[0]? = some "a" ∧ 1 < (s.file "a").data.length ∧ (s.file "a").done = true ∧
    (step toy (step toy s (.store 0 1 9)).1 (.fsString "a")).2 = .bytes [1, 9, 3] := by decide +kernel

/-- C64: after any history without stores, a file is either unasked for or has the decoded contents and the last element of
one of the names by which it was asked for. -/
theorem c64_contents (env : Env) (ops : List Op) (hq : ∀ o ∈ ops, isStore o = false) (k : String) (e : EscFile)
    (he : env.escData k = some e) :
    let f := (run env {} ops).1.file k
    (f.done = false ∧ f.data = [] ∧ f.name = "" ∧ ∀ o ∈ ops, ∀ n, asked o = some n → env.clean n ≠ k) ∨
    (f.done = true ∧ f.data = (decode e).1 ∧ ∃ o ∈ ops, ∃ n, asked o = some n ∧ env.clean n = k ∧ f.name = env.base n) := by
  by_cases h : ∀ o ∈ ops, ∀ n, asked o = some n → env.clean n ≠ k
  · left
    suffices H : ∀ (ops : List Op) (s : State), (∀ o ∈ ops, isStore o = false) →
        (∀ o ∈ ops, ∀ n, asked o = some n → env.clean n ≠ k) → (s.file k).done = false →
        (run env s ops).1.file k = s.file k by
      have := H ops {} hq h rfl
      simp only [this]
      exact ⟨trivial, trivial, trivial, h⟩
    intro ops
    induction ops with
    | nil => intros; rfl
    | cons o ops ih =>
      intro s hq h hd
      have h1 := (step_file env s o k e he).2.1 hd (h o List.mem_cons_self) (hq o List.mem_cons_self)
      rw [run]
      simp only
      rw [ih _ (fun o ho => hq o (List.mem_cons_of_mem _ ho)) (fun o ho => h o (List.mem_cons_of_mem _ ho)) (by rw [h1]; exact hd), h1]
  · right
    have hx : ∃ before o n after, ops = before ++ o :: after ∧ asked o = some n ∧ env.clean n = k ∧
        ∀ o ∈ before, ∀ n, asked o = some n → env.clean n ≠ k := by
      clear hq
      induction ops with
      | nil => exact absurd (by simp) h
      | cons o ops ih =>
        by_cases ho : ∀ n, asked o = some n → env.clean n ≠ k
        · obtain ⟨b, o', n, a, rfl, h2, h3, h4⟩ := ih (by
            intro hh
            apply h
            intro o' ho'
            rcases List.mem_cons.1 ho' with rfl | ho'
            · exact ho
            · exact hh o' ho')
          refine ⟨o :: b, o', n, a, rfl, h2, h3, ?_⟩
          intro o' ho'
          rcases List.mem_cons.1 ho' with rfl | ho'
          · exact ho
          · exact h4 o' ho'
        · simp only [not_forall, not_not] at ho
          obtain ⟨n, h1, h2⟩ := ho
          exact ⟨[], o, n, ops, rfl, h1, h2, by simp⟩
    obtain ⟨before, o, n, after, rfl, ha, rfl, hb⟩ := hx
    have := c64_first env before after o n e he ha hb hq
    simp only [this]
    exact ⟨trivial, trivial, o, by simp, n, ha, rfl, rfl⟩

/-- C64: both cases: `a` was asked for, `b` was not. -/
example : let s := (run toy {} [.openFile "a", .read 0 9]).1
    (s.file "a").done = true ∧ (s.file "a").data = [1, 2, 3] ∧ (s.file "b").done = false := by decide +kernel

/-- C64: after any history without stores, opening a file that decodes without error succeeds and gives a handle at its
beginning whose file has the decoded contents; `Stat` gives the recorded size, time and kind, and the mode 0. -/
theorem c64_open (env : Env) (ops : List Op) (hq : ∀ o ∈ ops, isStore o = false) (name : String) (e : EscFile)
    (he : env.escData (env.clean name) = some e) (hd : (decode e).2 = none) :
    let r := step env (run env {} ops).1 (.openFile name)
    ∃ h, r.2 = .handle h ∧ OpenAt r.1 h (env.clean name) 0 ∧ (r.1.file (env.clean name)).data = (decode e).1 ∧
      (step env r.1 (.stat h)).2 = .info ⟨(r.1.file (env.clean name)).name, e.size, 0, env.modtime (env.clean name),
        env.isDir (env.clean name)⟩ := by
  intro r
  have hp : (prepare env (run env {} ops).1 name).2 = .inr (env.clean name) := by
    unfold prepare
    simp only [he, hd]
    split <;> rfl
  obtain ⟨-, -, -, -, h4, h5, -⟩ := (asked_result env (run env {} ops).1 name).2 _ hp
  refine ⟨_, h4, h5, ?_, ?_⟩
  · have h := c64_contents env ops hq (env.clean name) e he
    simp only at h
    rcases h with ⟨h, -⟩ | ⟨h, h', -⟩
    · exact congrArg FileState.data ((step_file env (run env {} ops).1 (.openFile name) _ e he).2.2 h name rfl rfl)
    · rcases (step_file env (run env {} ops).1 (.openFile name) _ e he).1 h with h | h
      · rw [← h']; exact congrArg FileState.data h
      · cases h
  · show (step env (step env (run env {} ops).1 (.openFile name)).1 _).2 = _
    simp only [step] at h5 ⊢
    rw [h5.1]
    simp only [he, Option.map_some, Option.getD_some]
    rfl

/-- C64: the third handle on `a`. -/
example : (step toy (run toy {} [.openFile "a", .read 0 9, .openFile "a"]).1 (.openFile "a")).2 = .handle 2 := by decide +kernel

/-- C64: the name that `Stat` gives on a handle is the last element of the name another caller used before. -/
theorem c64_name (env : Env) (first name : String) (e : EscFile) (he : env.escData (env.clean first) = some e)
    (hk : env.clean name = env.clean first) :
    ∃ i, (step env (run env {} [.fsByte first, .openFile name]).1 (.stat 0)).2 = .info i ∧ i.name = env.base first := by
  have h := c64_first env [] [.openFile name] (.fsByte first) _ e he rfl (by simp) (by simp [isStore])
  have hh : (run env {} [.fsByte first, .openFile name]).1.handles[0]? = some ⟨env.clean first, 0⟩ := by
    show (openFile env (fsByte env {} first).1 name).1.handles[0]? = _
    have hd : ((fsByte env {} first).1.file (env.clean first)).done = true := by
      have := c64_first env [] [] (.fsByte first) _ e he rfl (by simp) (by simp [isStore])
      exact congrArg FileState.done this
    have hp : prepare env (fsByte env {} first).1 name = ((fsByte env {} first).1, .inr (env.clean first)) := by
      unfold prepare
      simp only [hk, he, hd, if_true]
    unfold openFile
    rw [hp]
    simp only [(fsByte_state env {} first).2]
    rfl
  rw [List.nil_append] at h
  generalize (run env {} [.fsByte first, .openFile name]).1 = s at hh h
  simp only [step, hh]
  exact ⟨_, rfl, by simp only [h]⟩

/-- C64: a file under two names. -/
example : let env := { toy with clean := fun _ => "a" }
    (run env {} [.fsByte "x", .openFile "y", .stat 0]).2 = [.slice 0 [1, 2, 3], .handle 0, .info ⟨"x", 3, 0, 9, false⟩] := by decide +kernel

/-- C64: `Readdir` and `Close` do nothing, on files and directories alike: no call changes anything, lists a file or reports the end, so
that a caller who reads a directory until `io.EOF` never ends. -/
theorem c64_readdir (env : Env) (s : State) (ops : List Op) (ho : ∀ op ∈ ops, (∃ h n, op = .readdir h n) ∨ ∃ h, op = .close h) :
    run env s ops = (s, ops.map fun _ => .nothing) := by
  induction ops with
  | nil => rfl
  | cons op ops ih =>
    have hs : step env s op = (s, .nothing) := by
      rcases ho op (by simp) with ⟨h, n, rfl⟩ | ⟨h, rfl⟩ <;> rfl
    rw [run, hs]
    simp only
    rw [ih fun o h => ho o (by simp [h])]
    rfl

/-- C64: a directory read twice, and then its `Stat` after closing. -/
example : (run { toy with isDir := fun _ => true } {} [.openFile "a", .readdir 0 100, .readdir 0 100, .close 0, .stat 0]).2 =
    [.handle 0, .nothing, .nothing, .nothing, .info ⟨"a", 3, 0, 9, true⟩] := by decide +kernel

/-! ### Concrete cases -/

/-- Two handles on one file, read in turn, with a seek and a read after closing. -/
example : (run toy {} [.openFile "a", .openFile "a", .read 0 2, .read 1 1, .close 0, .read 0 2, .read 0 2, .seek 1 (-1) 2,
      .read 1 5, .seek 0 (-1) 0, .stat 0]).2 =
    [.handle 0, .handle 1, .bytes [1, 2], .bytes [1], .nothing, .bytes [3], .eof, .position 2, .bytes [3],
      .error (.other "bytes.Reader.Seek: negative position"), .info ⟨"a", 3, 0, 9, false⟩] := by decide +kernel

/-- `c64_store`: a store into the slice of one caller is seen by another caller and through an opened handle. -/
example : (run toy {} [.fsByte "a", .openFile "a", .store 0 1 9, .fsString "a", .read 0 3, .fsByte "a"]).2 =
    [.slice 0 [1, 2, 3], .handle 0, .nothing, .bytes [1, 9, 3], .bytes [1, 9, 3], .slice 1 [1, 9, 3]] := by decide +kernel

/-- `c64_must`: panics on the first use of a broken file; the second use succeeds with what was decoded of it (C38). -/
example : (run toy {} [.fsMustByte "b", .fsMustByte "b", .fsMustString "c", .fsString "c"]).2 =
    [.panics, .slice 0 [7], .panics, .error .notExist] := by decide +kernel

end Verif.Props
