import Verif.Spec.Esc
/-
The invariant of the transition system of Model/Esc.lean.
-/
set_option autoImplicit false

namespace Verif.Lemmas.Esc
open Verif.Model.Esc Verif.Spec.Esc

/-- Waiting to enter. -/
def Early (pc : PC) : Prop := pc = .idle ∨ pc = .fast ∨ pc = .lock

/-- Nobody has begun decoding the file `k`. -/
structure Fresh (env : Env) (k : String) (s : State) : Prop where
  done : (s.file k).done = false
  data : (s.file k).data = []
  calls : ∀ i, env.key i = k → (s.call i).err = none ∧
    (Early (s.call i).pc ∨ (s.call i).pc = .recheck ∧ (s.file k).holder = some i)
  holder : ∀ h, (s.file k).holder = some h → env.key h = k ∧ (s.call h).pc = .recheck

/-- Call `r` is decoding the file `k`. -/
structure Running (env : Env) (e : EscFile) (k : String) (r : Nat) (s : State) : Prop where
  key : env.key r = k
  done : (s.file k).done = false
  holder : (s.file k).holder = some r
  at_ : ((s.call r).pc = .setName ∧ (s.call r).err = none ∧ (s.file k).data = []) ∨
    ((s.call r).pc = .newReader ∧ e.size ≠ 0 ∧ (s.call r).err = none ∧ (s.file k).data = [] ∧
      (s.file k).name = env.base (env.arg r)) ∨
    ((s.call r).pc = .readAll ∧ e.size ≠ 0 ∧ e.newReader = none ∧ (s.call r).err = none ∧ (s.file k).data = [] ∧
      (s.file k).name = env.base (env.arg r)) ∨
    ((s.call r).pc = .setDone ∧ (s.call r).err = outErr e ∧ (s.file k).data = outData e ∧
      (s.file k).name = env.base (env.arg r))
  calls : ∀ i, i ≠ r → env.key i = k → (s.call i).err = none ∧ Early (s.call i).pc

/-- Call `r` has decoded the file `k`. -/
structure Finished (env : Env) (e : EscFile) (k : String) (r : Nat) (s : State) : Prop where
  key : env.key r = k
  done : (s.file k).done = true
  data : (s.file k).data = outData e
  name : (s.file k).name = env.base (env.arg r)
  err : (s.call r).err = outErr e
  at_ : ((s.call r).pc = .unlock ∧ (s.file k).holder = some r) ∨ (s.call r).pc = .checkErr ∨
    ((s.call r).pc = .readData ∧ outErr e = none) ∨
    (∃ x, outErr e = some x ∧ (s.call r).pc = .returned [] (some x)) ∨
    (outErr e = none ∧ (s.call r).pc = .returned (outData e) none)
  calls : ∀ i, i ≠ r → env.key i = k → (s.call i).err = none ∧
    (Early (s.call i).pc ∨ ((s.call i).pc = .recheck ∧ (s.file k).holder = some i) ∨
     ((s.call i).pc = .unlock ∧ (s.file k).holder = some i) ∨ (s.call i).pc = .checkErr ∨ (s.call i).pc = .readData ∨
     (s.call i).pc = .returned (outData e) none)
  holder : ∀ h, (s.file k).holder = some h → env.key h = k ∧ ((s.call h).pc = .recheck ∨ (s.call h).pc = .unlock)

/-- A step of a call on another file changes nothing about file `k`. -/
theorem step_other {env : Env} {s s' : State} {i : Nat} (h : step env s i = some s') :
    (∀ k, k ≠ env.key i → s'.file k = s.file k) ∧ (∀ j, j ≠ i → s'.call j = s.call j) := by
  unfold step at h
  simp only at h
  split at h
  · split at h
    · cases h
      exact ⟨fun _ _ => rfl, fun j hj => by simp [State.goto, State.setCall, hj]⟩
    · cases h
  · split at h
    all_goals first
      | (cases h; done)
      | (cases h
         refine ⟨fun k hk => ?_, fun j hj => ?_⟩ <;> simp [State.goto, State.setCall, State.setFile, *])
      | (split at h
         all_goals first
           | (cases h; done)
           | (cases h
              refine ⟨fun k hk => ?_, fun j hj => ?_⟩ <;> simp [State.goto, State.setCall, State.setFile, *]))

section
variable {env : Env} {e : EscFile} {k : String} {s s' : State} {i : Nat}

@[simp] theorem goto_call_self (pc : PC) : (s.goto i pc).call i = { s.call i with pc := pc } := by
  simp [State.goto, State.setCall]
@[simp] theorem goto_call_other (pc : PC) {j : Nat} (h : j ≠ i) : (s.goto i pc).call j = s.call j := by
  simp [State.goto, State.setCall, h]
@[simp] theorem goto_file (pc : PC) : (s.goto i pc).file = s.file := rfl
@[simp] theorem setCall_file (c : Call) : (s.setCall i c).file = s.file := rfl
@[simp] theorem setCall_self (c : Call) : (s.setCall i c).call i = c := by simp [State.setCall]
@[simp] theorem setCall_other (c : Call) {j : Nat} (h : j ≠ i) : (s.setCall i c).call j = s.call j := by
  simp [State.setCall, h]
@[simp] theorem setFile_file (f : FileState) : (s.setFile k f).file k = f := by simp [State.setFile]
@[simp] theorem setFile_call (f : FileState) : (s.setFile k f).call = s.call := rfl

/-- A step from the fresh phase. -/
theorem fresh_step (he : env.escData k = some e) (h : Fresh env k s) (hs : step env s i = some s') :
    Fresh env k s' ∨ Running env e k i s' := by
  have ho := step_other hs
  by_cases hk : env.key i = k
  · obtain ⟨herr, hpc⟩ := h.calls i hk
    unfold step at hs
    simp only [hk, he] at hs
    rcases hpc with (hpc | hpc | hpc) | ⟨hpc, hh⟩
    · rw [hpc] at hs; simp only [Option.some.injEq] at hs; subst hs
      refine Or.inl ⟨h.done, h.data, ?_, ?_⟩
      · intro j hj
        by_cases hji : j = i
        · subst hji; simp only [goto_call_self]; exact ⟨herr, Or.inl (Or.inr (Or.inl rfl))⟩
        · rw [goto_call_other _ hji]; exact h.calls j hj
      · intro x hx
        have hx' := h.holder x hx
        by_cases hxi : x = i
        · subst hxi; rw [hpc] at hx'; cases hx'.2
        · rw [goto_call_other _ hxi]; exact hx'
    · rw [hpc] at hs; simp only [Option.some.injEq, h.done] at hs; subst hs
      refine Or.inl ⟨h.done, h.data, ?_, ?_⟩
      · intro j hj
        by_cases hji : j = i
        · subst hji; simp only [goto_call_self]; exact ⟨herr, Or.inl (Or.inr (Or.inr rfl))⟩
        · rw [goto_call_other _ hji]; exact h.calls j hj
      · intro x hx
        have hx' := h.holder x hx
        by_cases hxi : x = i
        · subst hxi; rw [hpc] at hx'; cases hx'.2
        · rw [goto_call_other _ hxi]; exact hx'
    · rw [hpc] at hs
      simp only at hs
      split at hs
      · rename_i hn
        simp only [Option.some.injEq] at hs; subst hs
        refine Or.inl ⟨?_, ?_, ?_, ?_⟩
        · simp [h.done]
        · simp [h.data]
        · intro j hj
          by_cases hji : j = i
          · subst hji; simp [herr]
          · rw [goto_call_other _ hji]
            obtain ⟨h1, h2⟩ := h.calls j hj
            refine ⟨h1, ?_⟩
            rcases h2 with h2 | ⟨_, h2⟩
            · exact Or.inl h2
            · rw [hn] at h2; cases h2
        · intro x hx
          simp at hx
          subst hx
          simp [hk]
      · cases hs
    · rw [hpc] at hs; simp only [Option.some.injEq, h.done] at hs; subst hs
      refine Or.inr ⟨hk, h.done, hh, Or.inl ?_, ?_⟩
      · simp [herr, h.data]
      · intro j hj hjk
        rw [goto_call_other _ hj]
        obtain ⟨h1, h2⟩ := h.calls j hjk
        refine ⟨h1, ?_⟩
        rcases h2 with h2 | ⟨_, h2⟩
        · exact h2
        · rw [hh] at h2; cases h2; exact absurd rfl hj
  · left
    have hf := ho.1 k (fun h => hk h.symm)
    refine ⟨by rw [hf]; exact h.done, by rw [hf]; exact h.data, ?_, ?_⟩
    · intro j hj
      rw [hf, ho.2 j (fun hji => hk (hji ▸ hj))]; exact h.calls j hj
    · intro x hx
      rw [hf] at hx
      have := h.holder x hx
      rw [ho.2 x (fun hji => hk (hji ▸ this.1))]; exact this

theorem running_step {r : Nat} (he : env.escData k = some e) (h : Running env e k r s) (hs : step env s i = some s') :
    Running env e k r s' ∨ Finished env e k r s' := by
  have ho := step_other hs
  by_cases hk : env.key i = k
  · by_cases hir : i = r
    · subst hir
      have hn : ∀ (f : FileState) (c : Call), ∀ j, j ≠ i → env.key j = k →
          (((s.setFile k f).setCall i c).call j).err = none ∧ Early (((s.setFile k f).setCall i c).call j).pc := by
        intro f c j hj hjk; rw [setCall_other _ hj]; exact h.calls j hj hjk
      unfold step at hs
      simp only [hk, he] at hs
      rcases h.at_ with ⟨hpc, h1, h2⟩ | ⟨hpc, h0, h1, h2, h3⟩ | ⟨hpc, h0, h1, h2, h3, h4⟩ | ⟨hpc, h1, h2, h3⟩
      · rw [hpc] at hs; simp only [Option.some.injEq] at hs; subst hs
        refine Or.inl ⟨hk, by simp [h.done], by simp [h.holder], ?_, fun j hj hjk => hn _ _ j hj hjk⟩
        by_cases h0 : e.size = 0
        · right; right; right; simp [h0, h1, h2, outErr, outData]
        · right; left; simp [h0, h1, h2]
      · rw [hpc] at hs; simp only at hs
        split at hs
        · rename_i x hx
          simp only [Option.some.injEq] at hs; subst hs
          refine Or.inl ⟨hk, h.done, h.holder, Or.inr (Or.inr (Or.inr ?_)), ?_⟩
          · simp [outErr, outData, h0, hx, h2, h3]
          · intro j hj hjk; rw [setCall_other _ hj]; exact h.calls j hj hjk
        · rename_i hx
          simp only [Option.some.injEq] at hs; subst hs
          refine Or.inl ⟨hk, h.done, h.holder, Or.inr (Or.inr (Or.inl ?_)), ?_⟩
          · simp [h0, hx, h1, h2, h3]
          · intro j hj hjk; rw [goto_call_other _ hj]; exact h.calls j hj hjk
      · rw [hpc] at hs; simp only [Option.some.injEq] at hs; subst hs
        refine Or.inl ⟨hk, by simp [h.done], by simp [h.holder], Or.inr (Or.inr (Or.inr ?_)), fun j hj hjk => hn _ _ j hj hjk⟩
        simp [outErr, outData, h0, h1, h4]
      · rw [hpc] at hs; simp only [Option.some.injEq] at hs; subst hs
        refine Or.inr ⟨hk, by simp, by simp [h2], by simp [h3], by simp [h1], Or.inl (by simp [h.holder]), ?_, ?_⟩
        · intro j hj hjk
          have := hn { (s.file k) with done := true } { pc := .unlock, err := (s.call i).err } j hj hjk
          exact ⟨this.1, Or.inl this.2⟩
        · intro x hx
          simp [h.holder] at hx
          subst hx
          simp [hk]
    · obtain ⟨h1, h2⟩ := h.calls i hir hk
      have hri : r ≠ i := fun h => hir h.symm
      left
      unfold step at hs
      simp only [hk, he] at hs
      have fin : ∀ pc, Early pc → Running env e k r (s.goto i pc) := by
        intro pc hpc
        refine ⟨h.key, h.done, h.holder, ?_, ?_⟩
        · rw [goto_call_other _ hri]; exact h.at_
        · intro j hj hjk
          by_cases hji : j = i
          · subst hji; simp only [goto_call_self]; exact ⟨h1, hpc⟩
          · rw [goto_call_other _ hji]; exact h.calls j hj hjk
      rcases h2 with hpc | hpc | hpc
      · rw [hpc] at hs; simp only [Option.some.injEq] at hs; subst hs
        exact fin _ (Or.inr (Or.inl rfl))
      · rw [hpc] at hs; simp only [Option.some.injEq, h.done] at hs; subst hs
        exact fin _ (Or.inr (Or.inr rfl))
      · rw [hpc] at hs; simp only [h.holder] at hs
        split at hs
        · rename_i hc; cases hc
        · cases hs
  · left
    have hf := ho.1 k (fun h => hk h.symm)
    have hr : r ≠ i := fun hji => hk (hji ▸ h.key)
    refine ⟨h.key, by rw [hf]; exact h.done, by rw [hf]; exact h.holder, by rw [hf, ho.2 r hr]; exact h.at_, ?_⟩
    intro j hj hjk
    rw [ho.2 j (fun hji => hk (hji ▸ hjk))]; exact h.calls j hj hjk

theorem finished_step {r : Nat} (he : env.escData k = some e) (h : Finished env e k r s) (hs : step env s i = some s') :
    Finished env e k r s' := by
  have ho := step_other hs
  by_cases hk : env.key i = k
  · unfold step at hs
    simp only [hk, he] at hs
    by_cases hir : i = r
    · subst hir
      rcases h.at_ with ⟨hpc, hh⟩ | hpc | ⟨hpc, h1⟩ | ⟨x, h1, hpc⟩ | ⟨h1, hpc⟩
      · rw [hpc] at hs; simp only [Option.some.injEq] at hs; subst hs
        refine ⟨hk, by simp [h.done], by simp [h.data], by simp [h.name], by simp [h.err], Or.inr (Or.inl (by simp)), ?_, ?_⟩
        · intro j hj hjk
          rw [goto_call_other _ hj]
          obtain ⟨g1, g2⟩ := h.calls j hj hjk
          refine ⟨g1, ?_⟩
          rcases g2 with g2 | ⟨_, g2⟩ | ⟨_, g2⟩ | g2
          · exact Or.inl g2
          · rw [hh] at g2; cases g2; exact absurd rfl hj
          · rw [hh] at g2; cases g2; exact absurd rfl hj
          · exact Or.inr (Or.inr (Or.inr g2))
        · intro x hx; simp at hx
      · have fin : ∀ pc, (pc = .readData ∧ outErr e = none ∨ ∃ x, outErr e = some x ∧ pc = .returned [] (some x)) →
            Finished env e k i (s.goto i pc) := by
          intro pc hp
          refine ⟨hk, h.done, h.data, h.name, by simp [h.err], ?_, ?_, ?_⟩
          · simp only [goto_call_self]
            rcases hp with hp | hp
            · exact Or.inr (Or.inr (Or.inl hp))
            · exact Or.inr (Or.inr (Or.inr (Or.inl hp)))
          · intro j hj hjk; rw [goto_call_other _ hj]; exact h.calls j hj hjk
          · intro x hx
            have := h.holder x hx
            by_cases hxi : x = i
            · subst hxi; rw [hpc] at this; simp at this
            · rw [goto_call_other _ hxi]; exact this
        rw [hpc] at hs; simp only [h.err] at hs
        split at hs
        · rename_i x hx
          simp only [Option.some.injEq] at hs; subst hs
          exact fin _ (Or.inr ⟨x, hx, rfl⟩)
        · rename_i hx
          simp only [Option.some.injEq] at hs; subst hs
          exact fin _ (Or.inl ⟨rfl, hx⟩)
      · rw [hpc] at hs; simp only [Option.some.injEq, h.data] at hs; subst hs
        refine ⟨hk, h.done, h.data, h.name, by simp [h.err], Or.inr (Or.inr (Or.inr (Or.inr ⟨h1, by simp⟩))), ?_, ?_⟩
        · intro j hj hjk; rw [goto_call_other _ hj]; exact h.calls j hj hjk
        · intro x hx
          have := h.holder x hx
          by_cases hxi : x = i
          · subst hxi; rw [hpc] at this; simp at this
          · rw [goto_call_other _ hxi]; exact this
      · rw [hpc] at hs; cases hs
      · rw [hpc] at hs; cases hs
    · have hri : r ≠ i := fun h => hir h.symm
      obtain ⟨h1, h2⟩ := h.calls i hir hk
      have fin : ∀ pc, ((s.call i).pc ≠ .recheck ∧ (s.call i).pc ≠ .unlock) → (Early pc ∨ pc = .checkErr ∨ pc = .readData ∨
          pc = .returned (outData e) none) → Finished env e k r (s.goto i pc) := by
        intro pc hne hp
        refine ⟨h.key, h.done, h.data, h.name, by rw [goto_call_other _ hri]; exact h.err,
          by rw [goto_call_other _ hri]; exact h.at_, ?_, ?_⟩
        · intro j hj hjk
          by_cases hji : j = i
          · subst hji; simp only [goto_call_self]
            refine ⟨h1, ?_⟩
            rcases hp with hp | hp
            · exact Or.inl hp
            · exact Or.inr (Or.inr (Or.inr hp))
          · rw [goto_call_other _ hji]; exact h.calls j hj hjk
        · intro x hx
          have := h.holder x hx
          by_cases hxi : x = i
          · subst hxi; rcases this.2 with h' | h'
            · exact absurd h' hne.1
            · exact absurd h' hne.2
          · rw [goto_call_other _ hxi]; exact this
      rcases h2 with (hpc | hpc | hpc) | ⟨hpc, hh⟩ | ⟨hpc, hh⟩ | hpc | hpc | hpc
      · rw [hpc] at hs; simp only [Option.some.injEq] at hs; subst hs
        exact fin _ (by simp [hpc]) (Or.inl (Or.inr (Or.inl rfl)))
      · rw [hpc] at hs; simp only [Option.some.injEq, h.done] at hs; subst hs
        exact fin _ (by simp [hpc]) (Or.inr (Or.inl rfl))
      · rw [hpc] at hs; simp only at hs
        split at hs
        · rename_i hn
          simp only [Option.some.injEq] at hs; subst hs
          have nh : ∀ x, (s.file k).holder ≠ some x := by intro x hx; rw [hn] at hx; cases hx
          refine ⟨h.key, by simp [h.done], by simp [h.data], by simp [h.name],
            by rw [goto_call_other _ hri]; exact h.err, ?_, ?_, ?_⟩
          · rw [goto_call_other _ hri]
            rcases h.at_ with ⟨_, g⟩ | g
            · exact absurd g (nh _)
            · exact Or.inr g
          · intro j hj hjk
            by_cases hji : j = i
            · subst hji
              refine ⟨by simp [h1], Or.inr (Or.inl ?_)⟩
              simp
            · rw [goto_call_other _ hji]
              obtain ⟨g1, g2⟩ := h.calls j hj hjk
              refine ⟨g1, ?_⟩
              rcases g2 with g2 | ⟨_, g2⟩ | ⟨_, g2⟩ | g2
              · exact Or.inl g2
              · exact absurd g2 (nh _)
              · exact absurd g2 (nh _)
              · exact Or.inr (Or.inr (Or.inr g2))
          · intro x hx
            simp at hx
            subst hx
            simp [hk]
        · cases hs
      · rw [hpc] at hs; simp only [Option.some.injEq, h.done] at hs; subst hs
        refine ⟨h.key, h.done, h.data, h.name, by rw [goto_call_other _ hri]; exact h.err,
          by rw [goto_call_other _ hri]; exact h.at_, ?_, ?_⟩
        · intro j hj hjk
          by_cases hji : j = i
          · subst hji
            refine ⟨by simp [h1], Or.inr (Or.inr (Or.inl ?_))⟩
            simp [hh]
          · rw [goto_call_other _ hji]; exact h.calls j hj hjk
        · intro x hx
          have : x = i := by rw [goto_file, hh] at hx; cases hx; rfl
          subst this
          simp [hk]
      · rw [hpc] at hs; simp only [Option.some.injEq] at hs; subst hs
        refine ⟨h.key, by simp [h.done], by simp [h.data], by simp [h.name],
          by rw [goto_call_other _ hri]; exact h.err, ?_, ?_, ?_⟩
        · rw [goto_call_other _ hri]
          rcases h.at_ with ⟨_, g⟩ | g
          · rw [hh] at g; cases g; exact absurd rfl hir
          · exact Or.inr g
        · intro j hj hjk
          by_cases hji : j = i
          · subst hji
            refine ⟨by simp [h1], Or.inr (Or.inr (Or.inr (Or.inl ?_)))⟩
            simp
          · rw [goto_call_other _ hji]
            obtain ⟨g1, g2⟩ := h.calls j hj hjk
            refine ⟨g1, ?_⟩
            rcases g2 with g2 | ⟨_, g2⟩ | ⟨_, g2⟩ | g2
            · exact Or.inl g2
            · rw [hh] at g2; cases g2; exact absurd rfl hji
            · rw [hh] at g2; cases g2; exact absurd rfl hji
            · exact Or.inr (Or.inr (Or.inr g2))
        · intro x hx; simp at hx
      · rw [hpc] at hs; simp only [h1, Option.some.injEq] at hs; subst hs
        exact fin _ (by simp [hpc]) (Or.inr (Or.inr (Or.inl rfl)))
      · rw [hpc] at hs; simp only [Option.some.injEq, h.data] at hs; subst hs
        exact fin _ (by simp [hpc]) (Or.inr (Or.inr (Or.inr rfl)))
      · rw [hpc] at hs; cases hs
  · have hf := ho.1 k (fun h => hk h.symm)
    have hr : r ≠ i := fun hji => hk (hji ▸ h.key)
    refine ⟨h.key, by rw [hf]; exact h.done, by rw [hf]; exact h.data, by rw [hf]; exact h.name,
      by rw [ho.2 r hr]; exact h.err, by rw [hf, ho.2 r hr]; exact h.at_, ?_, ?_⟩
    · intro j hj hjk
      rw [hf, ho.2 j (fun hji => hk (hji ▸ hjk))]; exact h.calls j hj hjk
    · intro x hx
      rw [hf] at hx
      have := h.holder x hx
      rw [ho.2 x (fun hji => hk (hji ▸ this.1))]; exact this

end

/-- The invariant. -/
def Inv (env : Env) (s : State) : Prop :=
  (∀ k e, env.escData k = some e → Fresh env k s ∨ ∃ r, Running env e k r s ∨ Finished env e k r s) ∧
  ∀ i, env.escData (env.key i) = none → (s.call i).pc = .idle ∨ (s.call i).pc = .returned [] (some .notExist)

theorem inv_init (env : Env) : Inv env State.init := by
  refine ⟨fun k e _ => Or.inl ⟨rfl, rfl, fun i _ => ⟨rfl, Or.inl (Or.inl rfl)⟩, ?_⟩, fun i _ => Or.inl rfl⟩
  intro h hh; cases hh

theorem inv_step {env : Env} {s s' : State} {i : Nat} (h : Inv env s) (hs : step env s i = some s') : Inv env s' := by
  refine ⟨?_, ?_⟩
  · intro k e he
    rcases h.1 k e he with h | ⟨r, h | h⟩
    · rcases fresh_step he h hs with h | h
      · exact Or.inl h
      · exact Or.inr ⟨i, Or.inl h⟩
    · exact Or.inr ⟨r, running_step he h hs⟩
    · exact Or.inr ⟨r, Or.inr (finished_step he h hs)⟩
  · intro j hj
    by_cases hji : j = i
    · subst hji
      unfold step at hs
      simp only [hj] at hs
      split at hs
      · cases hs; right; simp
      · cases hs
    · rw [(step_other hs).2 j hji]; exact h.2 j hj

theorem inv_run {env : Env} {s : State} (h : Inv env s) (sched : List Nat) : Inv env (run env s sched) := by
  induction sched generalizing s with
  | nil => exact h
  | cons i sched ih =>
    show Inv env (run env ((step env s i).getD s) sched)
    cases hs : step env s i with
    | none => exact ih h
    | some s' => exact ih (inv_step h hs)

theorem finished_run {env : Env} {e : EscFile} {k : String} {r : Nat} {s : State} (he : env.escData k = some e)
    (h : Finished env e k r s) (sched : List Nat) : Finished env e k r (run env s sched) := by
  induction sched generalizing s with
  | nil => exact h
  | cons i sched ih =>
    show Finished env e k r (run env ((step env s i).getD s) sched)
    cases hs : step env s i with
    | none => exact ih h
    | some s' => exact ih (finished_step he h hs)

end Verif.Lemmas.Esc
