import Verif.Lemmas.Esc
/-
C38: concurrent reads of embedded files.
-/
set_option autoImplicit false

namespace Verif.Props
open Verif.Model.Esc Verif.Spec.Esc Verif.Lemmas.Esc

/-- For the concrete cases: a file that is good or broken after two bytes, two calls for it and a schedule. -/
def demoFile (broken : Bool) : EscFile :=
  EscFile.mk 3 none (if broken then ([1, 2], some (.other "unexpected EOF")) else ([1, 2, 3], none))

def demoEnv (broken : Bool) : Env where
  escData := fun k => if k = "/a" then some (demoFile broken) else none
  clean := fun n => "/" ++ n
  base := fun n => n
  arg := fun _ => "a"

def demoSchedule : List Nat := [0, 1, 0, 1, 0, 1, 0, 0, 1, 0, 0, 0, 1, 0, 1, 0, 1, 0, 1, 1, 1, 1, 0, 1, 0]

/-- C38: whatever the interleaving, every call on a file that decodes returns the whole contents without an error. -/
theorem c38_contents (env : Env) (sched : List Nat) (i : Nat) (e : EscFile) (data : List UInt8) (err : Option Err)
    (he : env.escData (env.key i) = some e) (hok : outErr e = none) (h : Returned (run env .init sched) i data err) :
    data = outData e ∧ err = none := by
  unfold Returned at h
  rcases (inv_run (inv_init env) sched).1 _ _ he with g | ⟨r, g | g⟩
  · rcases (g.calls i rfl).2 with (h' | h' | h') | ⟨h', -⟩ <;> rw [h'] at h <;> cases h
  · by_cases hir : i = r
    · subst hir
      rcases g.at_ with ⟨h', -⟩ | ⟨h', -⟩ | ⟨h', -⟩ | ⟨h', -⟩ <;> rw [h'] at h <;> cases h
    · rcases (g.calls i hir rfl).2 with h' | h' | h' <;> rw [h'] at h <;> cases h
  · by_cases hir : i = r
    · subst hir
      rcases g.at_ with ⟨h', -⟩ | h' | ⟨h', -⟩ | ⟨x, h1, h'⟩ | ⟨-, h'⟩
      · rw [h'] at h; cases h
      · rw [h'] at h; cases h
      · rw [h'] at h; cases h
      · rw [hok] at h1; cases h1
      · rw [h'] at h; cases h; exact ⟨rfl, rfl⟩
    · rcases (g.calls i hir rfl).2 with (h' | h' | h') | ⟨h', -⟩ | ⟨h', -⟩ | h' | h' | h' <;> rw [h'] at h <;> cases h
      exact ⟨rfl, rfl⟩

/-- C38: both calls of the schedule on the good file. -/
example : outErr (demoFile false) = none ∧ Returned (run (demoEnv false) .init demoSchedule) 1 (outData (demoFile false)) none := by
  unfold Returned; decide +kernel

/-- C38: a call for a name that is not in the table returns `os.ErrNotExist`. -/
theorem c38_missing (env : Env) (sched : List Nat) (i : Nat) (data : List UInt8) (err : Option Err)
    (he : env.escData (env.key i) = none) (h : Returned (run env .init sched) i data err) :
    data = [] ∧ err = some .notExist := by
  unfold Returned at h
  rcases (inv_run (inv_init env) sched).2 i he with h' | h' <;> rw [h'] at h <;> cases h
  exact ⟨rfl, rfl⟩

/-- C38: a table without files. -/
example : Returned (run { demoEnv true with escData := fun _ => none } .init [0, 1, 0]) 0 [] (some .notExist) := by
  unfold Returned; decide +kernel

/-- C38: a call on a file that does not decode returns either the error or, without any error, what could be read. -/
theorem c38_broken (env : Env) (sched : List Nat) (i : Nat) (e : EscFile) (x : Err) (data : List UInt8) (err : Option Err)
    (he : env.escData (env.key i) = some e) (hx : outErr e = some x) (h : Returned (run env .init sched) i data err) :
    (data = [] ∧ err = some x) ∨ (data = outData e ∧ err = none) := by
  unfold Returned at h
  rcases (inv_run (inv_init env) sched).1 _ _ he with g | ⟨r, g | g⟩
  · rcases (g.calls i rfl).2 with (h' | h' | h') | ⟨h', -⟩ <;> rw [h'] at h <;> cases h
  · by_cases hir : i = r
    · subst hir
      rcases g.at_ with ⟨h', -⟩ | ⟨h', -⟩ | ⟨h', -⟩ | ⟨h', -⟩ <;> rw [h'] at h <;> cases h
    · rcases (g.calls i hir rfl).2 with h' | h' | h' <;> rw [h'] at h <;> cases h
  · by_cases hir : i = r
    · subst hir
      rcases g.at_ with ⟨h', -⟩ | h' | ⟨h', -⟩ | ⟨x', h1, h'⟩ | ⟨h1, h'⟩
      · rw [h'] at h; cases h
      · rw [h'] at h; cases h
      · rw [h'] at h; cases h
      · rw [h'] at h; cases h
        rw [hx] at h1; cases h1; exact Or.inl ⟨rfl, rfl⟩
      · rw [hx] at h1; cases h1
    · rcases (g.calls i hir rfl).2 with (h' | h' | h') | ⟨h', -⟩ | ⟨h', -⟩ | h' | h' | h' <;> rw [h'] at h <;> cases h
      exact Or.inr ⟨rfl, rfl⟩

/-- C38: both outcomes, in one schedule. -/
example : outErr (demoFile true) = some (.other "unexpected EOF") ∧
    Returned (run (demoEnv true) .init demoSchedule) 0 [] (some (.other "unexpected EOF")) ∧
    Returned (run (demoEnv true) .init demoSchedule) 1 (outData (demoFile true)) none := by
  unfold Returned; decide +kernel

/-- C38: at most one call per file ever returns an error. -/
theorem c38_one_error (env : Env) (sched : List Nat) (i j : Nat) (e : EscFile) (d d' : List UInt8) (x x' : Err)
    (he : env.escData (env.key i) = some e) (hk : env.key i = env.key j)
    (h : Returned (run env .init sched) i d (some x)) (h' : Returned (run env .init sched) j d' (some x')) : i = j := by
  unfold Returned at h h'
  have key : ∀ (r i : Nat) (d : List UInt8) (x : Err), Finished env e (env.key j) r (run env .init sched) →
      env.key i = env.key j → ((run env .init sched).call i).pc = .returned d (some x) → i = r := by
    intro r i d x g hk h
    by_cases hir : i = r
    · exact hir
    · exfalso
      rcases (g.calls i hir hk).2 with (h' | h' | h') | ⟨h', -⟩ | ⟨h', -⟩ | h' | h' | h' <;> rw [h'] at h <;> cases h
  rcases (inv_run (inv_init env) sched).1 _ _ he with g | ⟨r, g | g⟩
  · rcases (g.calls i rfl).2 with (h1 | h1 | h1) | ⟨h1, -⟩ <;> rw [h1] at h <;> cases h
  · by_cases hir : i = r
    · subst hir
      rcases g.at_ with ⟨h1, -⟩ | ⟨h1, -⟩ | ⟨h1, -⟩ | ⟨h1, -⟩ <;> rw [h1] at h <;> cases h
    · rcases (g.calls i hir rfl).2 with h1 | h1 | h1 <;> rw [h1] at h <;> cases h
  · rw [hk] at g
    rw [key r i d x g hk h, key r j d' x' g rfl h']

/-- C38: if call 2 comes first, it gets the error and the others do not. -/
example : Returned (run (demoEnv true) .init (List.replicate 11 2 ++ demoSchedule)) 2 [] (some (.other "unexpected EOF")) ∧
    Returned (run (demoEnv true) .init (List.replicate 11 2 ++ demoSchedule)) 0 [1, 2] none := by
  unfold Returned; decide +kernel

/-- C38: a call started after another call on the same file has returned gets no error even if the file does not
decode: it gets what could be read (nothing if the header is unreadable). -/
theorem c38_later (env : Env) (sched later : List Nat) (i j : Nat) (e : EscFile) (d d' : List UInt8) (x x' : Option Err)
    (he : env.escData (env.key i) = some e) (hk : env.key j = env.key i)
    (h : Returned (run env .init sched) i d x) (hj : Idle (run env .init sched) j)
    (h' : Returned (run env (run env .init sched) later) j d' x') : d' = outData e ∧ x' = none := by
  unfold Returned at h h'
  unfold Idle at hj
  rcases (inv_run (inv_init env) sched).1 _ _ he with g | ⟨r, g | g⟩
  · rcases (g.calls i rfl).2 with (h1 | h1 | h1) | ⟨h1, -⟩ <;> rw [h1] at h <;> cases h
  · by_cases hir : i = r
    · subst hir
      rcases g.at_ with ⟨h1, -⟩ | ⟨h1, -⟩ | ⟨h1, -⟩ | ⟨h1, -⟩ <;> rw [h1] at h <;> cases h
    · rcases (g.calls i hir rfl).2 with h1 | h1 | h1 <;> rw [h1] at h <;> cases h
  · have hjr : j ≠ r := by
      intro hjr; subst hjr
      rcases g.at_ with ⟨h1, -⟩ | h1 | ⟨h1, -⟩ | ⟨_, _, h1⟩ | ⟨_, h1⟩ <;> rw [h1] at hj <;> cases hj
    have g' := finished_run he g later
    rcases (g'.calls j hjr hk).2 with (h1 | h1 | h1) | ⟨h1, -⟩ | ⟨h1, -⟩ | h1 | h1 | h1 <;> rw [h1] at h' <;> cases h'
    exact ⟨rfl, rfl⟩

/-- C38: call 1 starts after call 0 has returned with the error. -/
example : Returned (run (demoEnv true) .init (List.replicate 11 0)) 0 [] (some (.other "unexpected EOF")) ∧
    Idle (run (demoEnv true) .init (List.replicate 11 0)) 1 ∧
    Returned (run (demoEnv true) (run (demoEnv true) .init (List.replicate 11 0)) (List.replicate 11 1)) 1 [1, 2] none := by
  unfold Returned Idle; decide +kernel

/-- C38: no data race: when a call is about to read the data of a file, no call is about to write its name or data. -/
theorem c38_no_race (env : Env) (sched : List Nat) (i j : Nat) (hk : env.key j = env.key i)
    (h : ((run env .init sched).call i).pc = .readData) :
    ((run env .init sched).call j).pc ≠ .setName ∧ ((run env .init sched).call j).pc ≠ .newReader ∧
    ((run env .init sched).call j).pc ≠ .readAll ∧ ((run env .init sched).file (env.key i)).done = true := by
  have hinv := inv_run (inv_init env) sched
  cases he : env.escData (env.key i) with
  | none => rcases hinv.2 i he with h' | h' <;> rw [h'] at h <;> cases h
  | some e =>
    rcases hinv.1 _ _ he with g | ⟨r, g | g⟩
    · rcases (g.calls i rfl).2 with (h1 | h1 | h1) | ⟨h1, -⟩ <;> rw [h1] at h <;> cases h
    · by_cases hir : i = r
      · subst hir
        rcases g.at_ with ⟨h1, -⟩ | ⟨h1, -⟩ | ⟨h1, -⟩ | ⟨h1, -⟩ <;> rw [h1] at h <;> cases h
      · rcases (g.calls i hir rfl).2 with h1 | h1 | h1 <;> rw [h1] at h <;> cases h
    · by_cases hjr : j = r
      · subst hjr
        rcases g.at_ with ⟨h1, -⟩ | h1 | ⟨h1, -⟩ | ⟨_, _, h1⟩ | ⟨_, h1⟩ <;> rw [h1] <;> simp [g.done]
      · rcases (g.calls j hjr hk).2 with (h1 | h1 | h1) | ⟨h1, -⟩ | ⟨h1, -⟩ | h1 | h1 | h1 <;> rw [h1] <;> simp [g.done]

/-- C38: call 0 is about to read the data while call 1 waits for the lock it saw taken. -/
example : let s := run (demoEnv false) .init [0, 0, 0, 0, 1, 1, 1, 0, 0, 0, 0, 0, 0]
    (s.call 0).pc = .readData ∧ (s.call 1).pc = .lock := by decide +kernel

/-- C38: two calls are never in the writing part for the same file. -/
theorem c38_exclusive (env : Env) (sched : List Nat) (i j : Nat) (hk : env.key j = env.key i)
    (hi : ((run env .init sched).call i).pc ∈ [.setName, .newReader, .readAll, .setDone])
    (hj : ((run env .init sched).call j).pc ∈ [.setName, .newReader, .readAll, .setDone]) : i = j := by
  have hinv := inv_run (inv_init env) sched
  cases he : env.escData (env.key i) with
  | none => rcases hinv.2 i he with h' | h' <;> rw [h'] at hi <;> simp at hi
  | some e =>
    rcases hinv.1 _ _ he with g | ⟨r, g | g⟩
    · rcases (g.calls i rfl).2 with (h1 | h1 | h1) | ⟨h1, -⟩ <;> rw [h1] at hi <;> simp at hi
    · have one : ∀ i, env.key i = env.key r →
          ((run env .init sched).call i).pc ∈ [.setName, .newReader, .readAll, .setDone] → i = r := by
        intro i hk hi
        by_contra hir
        rcases (g.calls i hir (hk.trans g.key)).2 with h1 | h1 | h1 <;> rw [h1] at hi <;> simp at hi
      rw [one i g.key.symm hi, one j (hk.trans g.key.symm) hj]
    · by_cases hjr : i = r
      · subst hjr
        rcases g.at_ with ⟨h1, -⟩ | h1 | ⟨h1, -⟩ | ⟨_, _, h1⟩ | ⟨_, h1⟩ <;> rw [h1] at hi <;> simp at hi
      · rcases (g.calls i hjr rfl).2 with (h1 | h1 | h1) | ⟨h1, -⟩ | ⟨h1, -⟩ | h1 | h1 | h1 <;> rw [h1] at hi <;> simp at hi

/-- C38: call 0 decodes; call 1 tried three times and is before the lock. -/
example : let s := run (demoEnv false) .init [0, 0, 0, 0, 0, 1, 1, 1, 1, 1]
    (s.call 0).pc = .newReader ∧ (s.call 1).pc = .lock ∧ step (demoEnv false) s 1 = none := by
  refine ⟨by decide +kernel, by decide +kernel, ?_⟩
  exact Option.not_isSome_iff_eq_none.1 (by decide +kernel)

/-- C38: no deadlock: a call that has not returned can take a step, or the call holding the mutex of its file can. -/
theorem c38_progress (env : Env) (sched : List Nat) (i : Nat)
    (h : ∀ d x, ¬ Returned (run env .init sched) i d x) :
    (step env (run env .init sched) i).isSome = true ∨
    ∃ j, ((run env .init sched).file (env.key i)).holder = some j ∧ (step env (run env .init sched) j).isSome = true := by
  have hinv := inv_run (inv_init env) sched
  generalize run env .init sched = s at *
  unfold Returned at h
  cases he : env.escData (env.key i) with
  | none =>
    rcases hinv.2 i he with h' | h'
    · left; unfold step; simp only [he, h']; rfl
    · exact absurd h' (h _ _)
  | some e =>
    have able : ∀ j, env.key j = env.key i → (s.call j).pc ≠ .lock → (∀ d x, (s.call j).pc ≠ .returned d x) →
        (step env s j).isSome = true := by
      intro j hk h1 h2
      unfold step
      simp only [hk, he]
      cases hp : (s.call j).pc <;> simp_all
      · cases e.newReader <;> rfl
      · cases (s.call j).err <;> rfl
    by_cases hl : (s.call i).pc = .lock
    · cases hh : (s.file (env.key i)).holder with
      | none =>
        left; unfold step; simp only [he, hl, hh]; rfl
      | some j =>
        right
        refine ⟨j, rfl, ?_⟩
        rcases hinv.1 _ _ he with g | ⟨r, g | g⟩
        · obtain ⟨h1, h2⟩ := g.holder j hh
          exact able j h1 (by rw [h2]; simp) (by intro d x; rw [h2]; simp)
        · have : j = r := by have := g.holder; rw [hh] at this; cases this; rfl
          subst this
          rcases g.at_ with ⟨h2, -⟩ | ⟨h2, -⟩ | ⟨h2, -⟩ | ⟨h2, -⟩ <;>
            exact able j g.key (by rw [h2]; simp) (by intro d x; rw [h2]; simp)
        · obtain ⟨h1, h2⟩ := g.holder j hh
          rcases h2 with h2 | h2 <;> exact able j h1 (by rw [h2]; simp) (by intro d x; rw [h2]; simp)
    · exact Or.inl (able i rfl hl h)

/-- C38: there call 1 cannot go on, but call 0, which holds the lock, can. -/
example : let s := run (demoEnv false) .init [0, 0, 0, 0, 0, 1, 1, 1, 1, 1]
    (step (demoEnv false) s 1).isSome = false ∧ (s.file "/a").holder = some 0 ∧ (step (demoEnv false) s 0).isSome = true := by
  decide +kernel

/-- C38: every step of a call brings it nearer to its return, so a call takes at most 11 steps. -/
theorem c38_terminates (env : Env) (s s' : State) (i : Nat) (h : step env s i = some s') :
    stepsLeft (s'.call i).pc < stepsLeft (s.call i).pc ∧ ∀ j, j ≠ i → s'.call j = s.call j := by
  refine ⟨?_, (step_other h).2⟩
  unfold step at h
  simp only at h
  cases hp : (s.call i).pc <;> rw [hp] at h <;> simp only at h <;> (repeat' split at h) <;>
    first
      | (cases h; done)
      | (cases h; simp [stepsLeft])

/-- C38: a first step. -/
example : (step (demoEnv true) .init 0).isSome = true := by decide +kernel

/-- C38: the name reported by `Stat` comes from the one call that decoded the file, not from the caller. -/
theorem c38_name (env : Env) (sched : List Nat) (i : Nat) (e : EscFile) (d : List UInt8) (x : Option Err)
    (he : env.escData (env.key i) = some e) (h : Returned (run env .init sched) i d x) :
    ∃ r, env.key r = env.key i ∧ ∀ later,
      ((run env (run env .init sched) later).file (env.key i)).name = env.base (env.arg r) := by
  unfold Returned at h
  rcases (inv_run (inv_init env) sched).1 _ _ he with g | ⟨r, g | g⟩
  · rcases (g.calls i rfl).2 with (h1 | h1 | h1) | ⟨h1, -⟩ <;> rw [h1] at h <;> cases h
  · by_cases hir : i = r
    · subst hir
      rcases g.at_ with ⟨h1, -⟩ | ⟨h1, -⟩ | ⟨h1, -⟩ | ⟨h1, -⟩ <;> rw [h1] at h <;> cases h
    · rcases (g.calls i hir rfl).2 with h1 | h1 | h1 <;> rw [h1] at h <;> cases h
  · exact ⟨r, g.key, fun later => (finished_run he g later).name⟩

/-- C38: the name is that of the call which decoded. -/
example : let env := { demoEnv false with arg := fun i => if i = 0 then "a" else "b", clean := fun _ => "/a" }
    ((run env .init demoSchedule).file "/a").name = "a" ∧ Returned (run env .init demoSchedule) 1 [1, 2, 3] none := by
  unfold Returned; decide +kernel

/-- C38: the error of a file that does not decode is not lost: once any call on it has returned, there is a call (the one that
decoded) that can only return with that error. -/
theorem c38_reported (env : Env) (sched : List Nat) (i : Nat) (e : EscFile) (y : Err) (d : List UInt8) (x : Option Err)
    (he : env.escData (env.key i) = some e) (hy : outErr e = some y) (h : Returned (run env .init sched) i d x) :
    ∃ r, env.key r = env.key i ∧ ((run env .init sched).call r).pc ∉ [.idle, .fast, .lock] ∧
      ∀ later d' x', Returned (run env (run env .init sched) later) r d' x' → d' = [] ∧ x' = some y := by
  unfold Returned at h
  rcases (inv_run (inv_init env) sched).1 _ _ he with g | ⟨r, g | g⟩
  · rcases (g.calls i rfl).2 with (h1 | h1 | h1) | ⟨h1, -⟩ <;> rw [h1] at h <;> cases h
  · by_cases hir : i = r
    · subst hir
      rcases g.at_ with ⟨h1, -⟩ | ⟨h1, -⟩ | ⟨h1, -⟩ | ⟨h1, -⟩ <;> rw [h1] at h <;> cases h
    · rcases (g.calls i hir rfl).2 with h1 | h1 | h1 <;> rw [h1] at h <;> cases h
  · refine ⟨r, g.key, ?_, ?_⟩
    · rcases g.at_ with ⟨h1, -⟩ | h1 | ⟨h1, -⟩ | ⟨_, -, h1⟩ | ⟨-, h1⟩ <;> rw [h1] <;> simp
    · intro later d' x' h'
      unfold Returned at h'
      rcases (finished_run he g later).at_ with ⟨h1, -⟩ | h1 | ⟨h1, -⟩ | ⟨z, h2, h1⟩ | ⟨h2, -⟩
      · rw [h1] at h'; cases h'
      · rw [h1] at h'; cases h'
      · rw [h1] at h'; cases h'
      · rw [h1] at h'; cases h'
        rw [hy] at h2; cases h2
        exact ⟨rfl, rfl⟩
      · rw [hy] at h2; cases h2

/-- Two calls, interleaved: on a broken file the first gets the error, the second gets no error and two bytes; on a good file both get everything. -/
example : Returned (run (demoEnv true) .init demoSchedule) 0 [] (some (.other "unexpected EOF")) ∧
    Returned (run (demoEnv true) .init demoSchedule) 1 [1, 2] none ∧
    Returned (run (demoEnv false) .init demoSchedule) 0 [1, 2, 3] none ∧
    Returned (run (demoEnv false) .init demoSchedule) 1 [1, 2, 3] none := by
  unfold Returned; decide +kernel

end Verif.Props
