import Verif.Lemmas.Local
import Verif.WitnessTwo
import Verif.Props.Footprint
import Mathlib.Data.List.Perm.Basic
/-!
# C70 and C71: what an instruction sees, and in which order instructions may run
-/

namespace Verif.Props

open Verif Verif.Witness

variable {env : Env} {o : Oracle}

/-- **C70.** The outcome of an instruction depends only on the accounts it names: in two states that agree on them (and differ
elsewhere in any way) it fails with the same error, or succeeds in both and leaves the named accounts alike. -/
theorem C70_sees_only_its_accounts (L : o.Local) (S : o.Sees) {ix : Ix} {w u : World} (h : Agree ix.ctx.accts w u) :
    SameOutcome ix.ctx.accts (exec env o w ix) (exec env o u ix) :=
  exec_agree L S h

/-- **C70.** And it changes only accounts it names as writable. -/
theorem C70_changes_only_writable (L : o.Local) (S : o.Sees) {ix : Ix} {w w' : World} (h : exec env o w ix = .ok w')
    {k : Key} (hk : ¬ (k ∈ ix.ctx.accts ∧ ix.ctx.writable k = true)) : w' k = w k :=
  exec_keeps L S h fun hm => by
    cases hb : ix.ctx.writable k
    · rfl
    · exact absurd ⟨hm, hb⟩ hk

/-- The reference rewards program sees only what it is called with. -/
theorem oracle_sees (time : Int) (view : Key → Res StakeView) (pay : Nat) : (oracle time view pay).Sees := by
  constructor <;> intro w u c h
  all_goals
    have h1 : w c.pool = u c.pool := h _ (by simp [RewardsCall.seen, RewardsCall.accounts])
    have h2 : w c.poolToken = u c.poolToken := h _ (by simp [RewardsCall.seen, RewardsCall.accounts])
    have h3 : w c.holderRewards = u c.holderRewards := h _ (by simp [RewardsCall.seen, RewardsCall.accounts])
    have h4 : w c.owner = u c.owner := h _ (by simp [RewardsCall.seen, RewardsCall.accounts])
    have h5 : w c.token = u c.token := h _ (by simp [RewardsCall.seen, RewardsCall.accounts])
    have h6 : callOk w c ↔ callOk u c := by unfold callOk; rw [h2, h3, h5]
  · simp only [oracle, harvestRewards, h1, h3, h4]
    split
    · split_ifs
      · intro k hk
        have := h k hk
        simp only [World.set_apply]
        split_ifs <;> simp_all
      · rfl
    · rfl
  · simp only [oracle, deposit, h2, h3, h5, h6]
    split
    · split_ifs
      · intro k hk
        have := h k hk
        simp only [World.set_apply]
        split_ifs <;> simp_all
      · rfl
    · rfl
  · simp only [oracle, withdraw, h2, h3, h5, h6]
    split
    · split_ifs
      · intro k hk
        have := h k hk
        simp only [World.set_apply]
        split_ifs <;> simp_all
      · rfl
    · rfl

/-- Harvesting on the first config does not depend on the rewards that have arrived on the second. -/
example : Agree ixHarvestVal1.ctx.accts b9 b10 ∧ b9 cfgB ≠ b10 cfgB ∧ okB o1 b10 ixHarvestVal1 = true :=
  ⟨by
    intro k hk
    have : ∀ k ∈ ixHarvestVal1.ctx.accts, b9 k = b10 k := by decide +kernel
    exact this k hk, by decide +kernel, by decide +kernel⟩

/-! ## C71 -/

/-- What one instruction of a compatible pair leaves for the other. -/
theorem compatible_keeps {s t : Job} (L : s.oracle.Local) (S : s.oracle.Sees) (C : s.Compatible t) {w w' : World}
    (h : exec env s.oracle w s.ix = .ok w') : Agree t.ix.ctx.accts w w' := fun k hk =>
  (exec_keeps L S h fun hm => (C k hm hk).1).symm

/-- Two compatible instructions, one way round. -/
theorem swap_ok {s t : Job} (Ls : s.oracle.Local) (Ss : s.oracle.Sees) (Lt : t.oracle.Local) (St : t.oracle.Sees)
    (C : s.Compatible t) {w w1 w2 : World} (h1 : exec env s.oracle w s.ix = .ok w1)
    (h2 : exec env t.oracle w1 t.ix = .ok w2) :
    ∃ w1', exec env t.oracle w t.ix = .ok w1' ∧ exec env s.oracle w1' s.ix = .ok w2 := by
  have C' : t.Compatible s := fun k hk hk' => (C k hk' hk).symm
  have a := exec_agree (env := env) Lt St (compatible_keeps Ls Ss C h1)
  rw [h2] at a
  cases e1 : exec env t.oracle w t.ix with
  | error e => rw [e1] at a; exact a.elim
  | ok v1 =>
    rw [e1] at a
    refine ⟨v1, rfl, ?_⟩
    have b := exec_agree (env := env) Ls Ss (compatible_keeps Lt St C' e1)
    rw [h1] at b
    cases e2 : exec env s.oracle v1 s.ix with
    | error e => rw [e2] at b; exact b.elim
    | ok v2 =>
      rw [e2] at b
      congr 1
      funext k
      by_cases hs : k ∈ s.ix.ctx.accts
      · rw [← b k hs, exec_keeps Lt St h2 fun hm => (C k hs hm).2]
      · rw [exec_keeps Ls Ss e2 fun hm => absurd hm hs]
        by_cases ht : k ∈ t.ix.ctx.accts
        · exact a k ht
        · rw [exec_keeps Lt St e1 fun hm => absurd hm ht, exec_keeps Lt St h2 fun hm => absurd hm ht,
            exec_keeps Ls Ss h1 fun hm => absurd hm hs]

/-- **C71.** A batch of instructions of which no two conflict has the same effect in every order: if it succeeds in one order,
it succeeds in every other, with the same final state. -/
theorem C71_order_does_not_matter {js js' : List Job} (hp : js.Perm js') (hc : js.Pairwise Job.Compatible)
    (hL : ∀ j ∈ js, j.oracle.Local) (hS : ∀ j ∈ js, j.oracle.Sees) {w w' : World}
    (h : runBatch env w js = .ok w') : runBatch env w js' = .ok w' := by
  induction hp generalizing w w' with
  | nil => exact h
  | cons j p ih =>
    simp only [runBatch, bind_ok] at h ⊢
    obtain ⟨w1, h1, h2⟩ := h
    exact ⟨w1, h1, ih (List.pairwise_cons.1 hc).2 (fun j hj => hL j (List.mem_cons_of_mem _ hj))
      (fun j hj => hS j (List.mem_cons_of_mem _ hj)) h2⟩
  | swap s t l =>
    simp only [runBatch, bind_ok] at h ⊢
    obtain ⟨w1, h1, w2, h2, h3⟩ := h
    have C := (List.pairwise_cons.1 hc).1 s List.mem_cons_self
    obtain ⟨v, e1, e2⟩ := swap_ok (hL t List.mem_cons_self) (hS t List.mem_cons_self)
      (hL s (List.mem_cons_of_mem _ List.mem_cons_self)) (hS s (List.mem_cons_of_mem _ List.mem_cons_self)) C h1 h2
    exact ⟨v, e1, w2, e2, h3⟩
  | trans p q ih1 ih2 =>
    have sym : ∀ {s t : Job}, s.Compatible t → t.Compatible s := fun C k hk hk' => (C k hk' hk).symm
    exact ih2 (p.pairwise hc sym) (fun j hj => hL j (p.mem_iff.2 hj)) (fun j hj => hS j (p.mem_iff.2 hj)) (ih1 hc hL hS h)

/-- The same instruction with the given writable accounts only. -/
def withWritable (x : Ix) (ks : List Key) : Ix := { x with ctx := { x.ctx with writable := fun k => ks.contains k } }

/-- Three stake accounts on two configs, opened in one batch. -/
def openBatch : List Job :=
  [⟨o1, withWritable ixInitVal1 [val1]⟩, ⟨o1, withWritable ixInitValB [valB]⟩, ⟨o1, withWritable ixInitVal2 [val2]⟩]

example : openBatch.Pairwise Job.Compatible ∧ (runBatch Witness.env b2 openBatch).isOk = true ∧
    ∀ j ∈ openBatch, j.oracle.Local ∧ j.oracle.Sees := by
  refine ⟨?_, by decide +kernel, ?_⟩
  · simp only [openBatch, List.pairwise_cons, List.forall_mem_cons, List.not_mem_nil, false_imp_iff, implies_true, and_true,
      List.Pairwise.nil]
    refine ⟨⟨?_, ?_⟩, ?_⟩ <;> unfold Job.Compatible <;> decide +kernel
  · simp only [openBatch, List.forall_mem_cons, List.not_mem_nil, false_imp_iff, implies_true, and_true]
    exact ⟨⟨oracle_local .., oracle_sees ..⟩, ⟨oracle_local .., oracle_sees ..⟩, ⟨oracle_local .., oracle_sees ..⟩⟩

end Verif.Props
