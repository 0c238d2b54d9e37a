import Verif.Model.Exported
import Verif.WitnessHistory
/-!
# C116: the exported accessor of delegations
-/

namespace Verif.Props

open Verif Verif.Witness

variable {env : Env} {w : World}

/-- **C116.** The exported accessor gives the delegation of a stake account of the given config, and of nothing else. -/
theorem C116_accessor {k ck : Key} {d : Delegation} (R : Reachable env w) :
    unpackDelegationMutChecked (w k).data k ck = .ok d ↔ stakeAt w k = some d ∧ belongs k ck := by
  have I := reachable_inv R
  have own : k.ofProgram = true → (w k).data ≠ .bytes [] → (w k).owner = progId := fun h1 h2 => by
    by_contra h
    exact h2 (I.unowned k h1 h).2
  rw [stakeAt_eq]
  constructor
  · intro h
    unfold unpackDelegationMutChecked at h
    split at h
    · rename_i s e
      simp only [bind_ok, require_ok, exists_unit, pure_ok] at h
      obtain ⟨hk, rfl⟩ := h
      exact ⟨⟨own (by rw [hk]; rfl) (by rw [e]; simp), by rw [e]; rfl⟩, .inr ⟨_, hk⟩⟩
    · rename_i s e
      simp only [bind_ok, require_ok, exists_unit, pure_ok] at h
      obtain ⟨hk, rfl⟩ := h
      exact ⟨⟨own (by rw [hk]; rfl) (by rw [e]; simp), by rw [e]; rfl⟩, .inl ⟨_, hk⟩⟩
    · cases h
  · rintro ⟨⟨ho, hd⟩, hb⟩
    have sh := I.shape k ho
    rcases hb with ⟨v, rfl⟩ | ⟨n, rfl⟩
    · obtain ⟨x, e, hx, _⟩ := sh
      rw [e] at hd ⊢
      cases hd
      simp [unpackDelegationMutChecked, hx, require]
    · obtain ⟨x, e, hx, _⟩ := sh
      rw [e] at hd ⊢
      cases hd
      simp [unpackDelegationMutChecked, hx, require]

/-- **C116.** It panics on data shorter than a discriminator, whatever the account. -/
theorem C116_accessor_panics {data : Data} {k ck : Key} :
    unpackDelegationMutChecked data k ck = .error .panic ↔ data.len < 8 := by
  cases data <;> simp only [unpackDelegationMutChecked, Data.len]
  case validator v =>
    by_cases h : k = .validatorPda v.del.vote ck <;> simp [require, h, bind, Except.bind, pure, Except.pure, validatorLen]
  case solStaker v =>
    by_cases h : k = .solStakerPda v.solStake ck <;> simp [require, h, bind, Except.bind, pure, Except.pure, solStakerLen]
  case bytes b => by_cases h : b.length < 8 <;> simp [h]
  all_goals simp [configLen]

/-! ## The cases are met -/

variable {d : Delegation}

/-- A validator's stake of the witness history; another config gets nothing. -/
example : ∃ d, unpackDelegationMutChecked (w6 val1).data val1 cfg = .ok d ∧ d.staked = 2000 := by
  have : ((unpackDelegationMutChecked (w6 val1).data val1 cfg).toOption.map (·.staked)) = some 2000 := by decide +kernel
  cases h : unpackDelegationMutChecked (w6 val1).data val1 cfg with
  | ok d => rw [h] at this; exact ⟨d, rfl, Option.some.inj this⟩
  | error e => rw [h] at this; cases this

example : unpackDelegationMutChecked (w6 val1).data val1 (.raw 99) ≠ .ok d :=
  fun h => by
    have := ((C116_accessor r6).1 h).2
    revert this
    decide +kernel

end Verif.Props
