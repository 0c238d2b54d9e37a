import Verif.Spec
/-!
# Inversion lemmas for the error monad and the writes
-/

namespace Verif

theorem bind_ok {α β} {x : Res α} {f : α → Res β} {b : β} :
    (x >>= f) = .ok b ↔ ∃ a, x = .ok a ∧ f a = .ok b := by
  cases x with
  | error e => simp [bind, Except.bind]
  | ok a => simp [bind, Except.bind]

theorem require_ok {p : Prop} [Decidable p] {e : Err} {u : Unit} : require p e = .ok u ↔ p := by
  unfold require; split <;> simp [*]

theorem pure_ok {α} {a b : α} : (pure a : Res α) = .ok b ↔ a = b := by
  simp [pure, Except.pure]

theorem ok_ok {α} {a b : α} : (Except.ok a : Res α) = .ok b ↔ a = b := by simp

theorem error_ok {α} {e : Err} {b : α} : (Except.error e : Res α) = .ok b ↔ False := by simp

theorem exists_unit {p : Unit → Prop} : (∃ u, p u) ↔ p () := ⟨fun ⟨_, h⟩ => h, fun h => ⟨_, h⟩⟩

theorem exists_eq_and {α} {a : α} {p : α → Prop} : (∃ x, a = x ∧ p x) ↔ p a := by simp

theorem ite_ok {α} {p : Prop} [Decidable p] {x y : Res α} {b : α} :
    (if p then x else y) = .ok b ↔ (p ∧ x = .ok b) ∨ (¬p ∧ y = .ok b) := by
  split <;> simp [*]

theorem addU64_ok {a b n : Nat} : addU64 a b = .ok n ↔ a + b < U64 ∧ n = a + b := by
  unfold addU64; split <;> simp_all [eq_comm]

theorem subU64_ok {a b n : Nat} : subU64 a b = .ok n ↔ b ≤ a ∧ n = a - b := by
  unfold subU64; split <;> simp_all [eq_comm]

theorem mulDivU64_ok {a b d n : Nat} :
    mulDivU64 a b d = .ok n ↔ (a * b < U128 ∧ a * b / d < U64) ∧ n = a * b / d := by
  unfold mulDivU64; split <;> simp_all [eq_comm]

/-- Replace the lamports of one account. -/
def World.setL (w : World) (k : Key) (n : Nat) : World := w.set k { w k with lamports := n }

/-- Replace the data of one account. -/
def World.setD (w : World) (k : Key) (d : Data) : World := w.set k { w k with data := d }

/-- Replace the owner of one account. -/
def World.setO (w : World) (k o : Key) : World := w.set k { w k with owner := o }

section
variable (w : World) (k k' : Key) (n : Nat) (d : Data) (o : Key)

@[simp] theorem World.setL_owner : (w.setL k n k').owner = (w k').owner := by
  unfold World.setL; rw [World.set_apply]; split <;> simp_all
@[simp] theorem World.setL_data : (w.setL k n k').data = (w k').data := by
  unfold World.setL; rw [World.set_apply]; split <;> simp_all
theorem World.setL_lamports : (w.setL k n k').lamports = if k' = k then n else (w k').lamports := by
  unfold World.setL; rw [World.set_apply]; split <;> simp_all
@[simp] theorem World.setD_owner : (w.setD k d k').owner = (w k').owner := by
  unfold World.setD; rw [World.set_apply]; split <;> simp_all
@[simp] theorem World.setD_lamports : (w.setD k d k').lamports = (w k').lamports := by
  unfold World.setD; rw [World.set_apply]; split <;> simp_all
theorem World.setD_data : (w.setD k d k').data = if k' = k then d else (w k').data := by
  unfold World.setD; rw [World.set_apply]; split <;> simp_all
@[simp] theorem World.setO_lamports : (w.setO k o k').lamports = (w k').lamports := by
  unfold World.setO; rw [World.set_apply]; split <;> simp_all
@[simp] theorem World.setO_data : (w.setO k o k').data = (w k').data := by
  unfold World.setO; rw [World.set_apply]; split <;> simp_all
theorem World.setO_owner : (w.setO k o k').owner = if k' = k then o else (w k').owner := by
  unfold World.setO; rw [World.set_apply]; split <;> simp_all
end

theorem setLamports_ok {w w' : World} {k : Key} {n : Nat} :
    setLamports w k n = .ok w' ↔ ((w k).lamports ≤ n ∨ (w k).owner = progId) ∧ w' = w.setL k n := by
  simp only [setLamports, bind_ok, require_ok, exists_unit, pure_ok, eq_comm (b := w'), World.setL]

theorem setData_ok {w w' : World} {k : Key} {d : Data} :
    setData w k d = .ok w' ↔ (d = (w k).data ∨ (w k).owner = progId) ∧ w' = w.setD k d := by
  simp only [setData, bind_ok, require_ok, exists_unit, pure_ok, eq_comm (b := w'), World.setD]

theorem unpackConfig_ok {w : World} {k : Key} {c : Config} : unpackConfig w k = .ok c ↔ (w k).data = .config c := by
  unfold unpackConfig; split <;> simp_all

theorem unpackValidator_ok {w : World} {k : Key} {v : ValidatorStake} :
    unpackValidator w k = .ok v ↔ (w k).data = .validator v := by
  unfold unpackValidator; split <;> simp_all

theorem unpackSolStaker_ok {w : World} {k : Key} {v : SolStakerStake} :
    unpackSolStaker w k = .ok v ↔ (w k).data = .solStaker v := by
  unfold unpackSolStaker; split <;> simp_all

theorem unpackToken_ok {w : World} {k : Key} {v : TokenAccount} :
    unpackToken w k = .ok v ↔ (w k).data = .token v := by
  unfold unpackToken; split <;> simp_all

theorem tokenData_ok {w : World} {k : Key} {v : TokenAccount} :
    tokenData w k = .ok v ↔ (w k).data = .token v := by
  unfold tokenData; split <;> simp_all

theorem mintData_ok {w : World} {k : Key} {v : Mint} :
    mintData w k = .ok v ↔ (w k).data = .mint v := by
  unfold mintData; split <;> simp_all

theorem unpackMint_ok {w : World} {k : Key} {v : Mint} :
    unpackMint w k = .ok v ↔ (w k).data = .mint v := by
  unfold unpackMint; split <;> simp_all

theorem unpackHolder_ok {w : World} {k : Key} {v : HolderRewards} :
    unpackHolder w k = .ok v ↔ (w k).data = .holder v := by
  unfold unpackHolder; split <;> simp_all

theorem unpackVote_ok {w : World} {k x : Key} :
    unpackVote w k = .ok x ↔ (w k).owner = voteId ∧ (w k).data = .vote x := by
  simp only [unpackVote, bind_ok, require_ok, exists_unit]
  cases h : (w k).data <;> simp [pure, Except.pure]

theorem readDel_ok {w : World} {k : Key} {d : Delegation} : readDel w k = .ok d ↔ (w k).data.del? = some d := by
  unfold readDel; split <;> simp_all

theorem createVaultPda_ok {env : Env} {c k : Key} {b : Nat} :
    env.createVaultPda c b = .ok k ↔ env.offCurve c b = true ∧ k = .vaultPda c b := by
  unfold Env.createVaultPda
  split
  · constructor
    · intro h; exact ⟨by assumption, (Except.ok.inj h).symm⟩
    · rintro ⟨_, rfl⟩; rfl
  · simp_all

end Verif
