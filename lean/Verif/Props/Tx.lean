import Verif.Lemmas.Rent
import Verif.Props.Live
import Verif.Props.Footprint
import Verif.Props.Rewards
/-!
# Transactions

C98 to C100.
-/

namespace Verif.Props

open Verif Verif.Witness

variable {env : Env} {o : Oracle} {w w' : World} {ix : Ix}

theorem runSteps_steps {l : List TxStep} (R : Reachable env w) (ho : ∀ {o ix}, TxStep.stake o ix ∈ l → o.Ok)
    (hf : ∀ {f u u'}, TxStep.other f ∈ l → u.WF → f u = .ok u' → ExtStep u u') (h : runSteps env w l = .ok w') :
    Steps env w w' := by
  have main : ∀ (l : List TxStep) (u : World), Steps env w u → (∀ {o ix}, TxStep.stake o ix ∈ l → o.Ok) →
      (∀ {f u u'}, TxStep.other f ∈ l → u.WF → f u = .ok u' → ExtStep u u') → runSteps env u l = .ok w' → Steps env w w' := by
    intro l
    induction l with
    | nil => intro u S _ _ h; simp only [runSteps, Except.ok.injEq] at h; rwa [← h]
    | cons s l ih =>
      intro u S ho hf h
      simp only [runSteps, bind_ok] at h
      obtain ⟨u', h1, h2⟩ := h
      refine ih u' (.tail S ?_) (fun hm => ho (List.mem_cons_of_mem _ hm)) (fun hm => hf (List.mem_cons_of_mem _ hm)) h2
      cases s with
      | stake o ix => exact .exec (ho List.mem_cons_self) h1
      | other f => exact .ext (hf List.mem_cons_self (reachable_inv (steps_reachable R S)).wf h1)
  exact main l w .refl ho hf h

theorem run_ok {tx : Tx} : tx.run env w = .ok w' ↔ runSteps env w tx.steps = .ok w' ∧
    ∀ k ∈ tx.writable, (rentState env (w k)).allowed (rentState env (w' k)) = true := by
  unfold Tx.run
  cases h : runSteps env w tx.steps with
  | error e => simp
  | ok u =>
    simp only [Except.ok.injEq]
    split_ifs with hc
    · simp only [Except.ok.injEq]
      exact ⟨by rintro rfl; exact ⟨rfl, hc⟩, fun h => h.1⟩
    · simp only [false_iff, not_and]
      rintro rfl h; exact hc h

/-- **C98.** A transaction that commits is a sequence of the steps that all other properties quantify over, so what they say about
reachable states and about what happens between two of them holds for the states between transactions; and its last state is
reachable. Several instructions in one transaction open no way around them. -/
theorem C98_history (R : Reachable env w) {tx : Tx} (T : tx.Ok) (h : tx.run env w = .ok w') :
    Steps env w w' ∧ Reachable env w' := by
  have S := runSteps_steps R T.oracle T.other (run_ok.1 h).1
  exact ⟨S, steps_reachable R S⟩

/-- **C99.** When a transaction of one instruction commits: when the instruction succeeds and every account that the transaction may
write and that has gained lamports has its rent minimum. No other part of the runtime's rent check can refuse an instruction of this
program. -/
theorem C99_commits_iff (R : Reachable env w) (O : o.Ok) (K : o.KeepsRent env) {writable : List Key} :
    (Tx.single o ix writable).run env w = .ok w' ↔ exec env o w ix = .ok w' ∧
      ∀ k ∈ writable, (w k).lamports < (w' k).lamports → RentExempt env (w' k) := by
  rw [run_ok]
  have e : runSteps env w (Tx.single o ix writable).steps = .ok w' ↔ exec env o w ix = .ok w' := by
    simp only [Tx.single, runSteps, TxStep.run, bind_ok]
    constructor
    · rintro ⟨u, h, h'⟩; rw [h]; exact h'
    · intro h; exact ⟨_, h, rfl⟩
  rw [e]
  refine and_congr_right fun h => forall₂_congr fun k _ => ?_
  exact allowed_iff (exec_mild (reachable_inv R) O K h k)

theorem settles_pays (R : Reachable env w) (O : o.Ok) (h : exec env o w ix = .ok w') {ck sk : Key} (hs : ix.Settles ck sk)
    {d : Delegation} (hd : stakeAt w sk = some d) (hself : d.authority ≠ ck) {k : Key} (hq : o.NoLamports k) :
    configAt w ck ≠ none ∧ belongs sk ck ∧ (w' k).lamports + (if k = ck then accrued env w ck sk else 0) =
      (w k).lamports + (if k = d.authority then accrued env w ck sk else 0) := by
  have ha : authorityOf w sk ≠ some ck := by
    unfold authorityOf; rw [hd]; simpa using hself
  obtain ⟨h0, hs⟩ := hs
  have fin : ∀ {c d1}, configAt w ck = some c → stakeAt w sk = some d1 → belongs sk ck →
      ((w' k).lamports + (if k = ck then accrued env w ck sk else 0) =
        (w k).lamports + (if k = d1.authority then accrued env w ck sk else 0)) →
      configAt w ck ≠ none ∧ belongs sk ck ∧ (w' k).lamports + (if k = ck then accrued env w ck sk else 0) =
        (w k).lamports + (if k = d.authority then accrued env w ck sk else 0) := by
    intro c d1 hc h1 hb h2
    rw [hd] at h1; rw [← Option.some.inj h1] at h2
    exact ⟨by rw [hc]; simp, hb, h2⟩
  split at hs
  · rename_i n hi
    obtain ⟨c, d1, d', hc, h1, _, hb, _, _, _, hm⟩ := C50_slash R h (Or.inl hi) h0 hs ha
    exact fin hc h1 hb (hm k)
  · rename_i n hi
    obtain ⟨c, d1, d', hc, h1, _, hb, _, _, _, hm⟩ := C50_slash R h (Or.inr hi) h0 hs ha
    exact fin hc h1 hb (hm k)
  · rename_i hi
    obtain ⟨c, v, hc, h1, hb, hm, _⟩ := C19_validator_harvest R h hi h0 hs
    exact fin hc (stakeAt_validator h1) hb (hm k)
  · rename_i n hi
    obtain ⟨c, d1, d', hc, h1, _, hb, _, _, hm⟩ := C50_override R h hi h0 hs ha
    exact fin hc h1 hb (hm k)
  · rename_i n hi
    obtain ⟨c, d1, d', hc, h1, _, hb, _, _, _, hm⟩ := C50_stake R O h (Or.inl hi) h0 hs ha
    exact fin hc h1 hb (hm k fun u call u' h => hq u call u' (Or.inl h))
  · rename_i n hi
    obtain ⟨c, d1, d', hc, h1, _, hb, _, _, _, hm⟩ := C50_stake R O h (Or.inr hi) h0 hs ha
    exact fin hc h1 hb (hm k fun u call u' h => hq u call u' (Or.inl h))
  · rename_i n hi
    obtain ⟨c, d1, d', hc, h1, _, hb, _, _, _, hm⟩ := C50_unstake R O h hi h0 hs ha
    exact fin hc h1 hb (hm k fun u call u' h => hq u call u' (Or.inr h))
  · exact hs.elim

/-- **C99.** A reward too small to open a wallet blocks its settlement. If nobody has an account at the stake's authority and the
accrued reward is positive but below the rent minimum of an empty account, then no transaction of one instruction that settles the
stake commits: neither a harvest, nor a slash, nor staking more, unstaking or an override of the staked lamports. -/
theorem C99_small_reward_refused (R : Reachable env w) (O : o.Ok) (K : o.KeepsRent env) (L : o.Local) {ck sk : Key}
    (hs : ix.Settles ck sk) {d : Delegation} (hd : stakeAt w sk = some d) (hq : o.NoLamports d.authority)
    (hv : Vacant w d.authority) (h0 : 0 < accrued env w ck sk) (h1 : accrued env w ck sk < env.rentMin 0)
    (hmono : ∀ n, env.rentMin 0 ≤ env.rentMin n) {writable : List Key} (T : (Tx.single o ix writable).Ok) :
    (Tx.single o ix writable).run env w ≠ .ok w' := by
  intro h
  obtain ⟨h, hr⟩ := (C99_commits_iff R O K).1 h
  have hc : configAt w ck ≠ none := by
    intro hc
    unfold accrued at h0; rw [hc] at h0; simp at h0
  obtain ⟨c, hc⟩ := Option.ne_none_iff_exists'.1 hc
  have hself : d.authority ≠ ck := by
    rintro rfl
    have := (configAt_eq.1 hc).1
    rw [hv.2.1] at this; exact absurd this (by decide)
  obtain ⟨_, _, hm⟩ := settles_pays R O h hs hd hself hq
  rw [if_neg hself, if_pos rfl, hv.1] at hm
  have hne : w' d.authority ≠ w d.authority := by
    intro e; rw [e, hv.1] at hm; omega
  obtain ⟨⟨i, hi, _⟩, hwr, _⟩ := exec_ok h
  have hmem : d.authority ∈ ix.ctx.accts := by
    by_contra hn
    refine hne (C63_footprint R L h hi fun p _ hp => hn ?_)
    exact List.mem_of_getElem? hp
  have hw := T.writable (o := o) (ix := ix) (by simp [Tx.single]) _ hmem ((hwr _ hmem).resolve_right hne)
  have := hr _ hw (by rw [hv.1]; omega)
  unfold RentExempt at this
  have := hmono (w' d.authority).data.len
  omega

/-- What the transfer in front of the instruction does. -/
theorem systemTransfer_ok {s t : Key} {n : Nat} (h : systemTransfer s t n w = .ok w') :
    (w s).owner = systemId ∧ (w s).data.isEmpty = true ∧ s.ofProgram = false ∧ n ≤ (w s).lamports ∧
      w' = (w.set s { w s with lamports := (w s).lamports - n }).set t
        { (w.set s { w s with lamports := (w s).lamports - n }) t with
          lamports := ((w.set s { w s with lamports := (w s).lamports - n }) t).lamports + n } ∧
      ((w.set s { w s with lamports := (w s).lamports - n }) t).lamports + n < U64 := by
  simp only [systemTransfer, bind_ok, require_ok, exists_unit, pure_ok] at h
  obtain ⟨⟨h1, h2, h3⟩, h4, h5, h6⟩ := h
  exact ⟨h1, h2, h3, h4, h6.symm, h5⟩

/-- A system transfer is something other programs can do. -/
theorem systemTransfer_ext {s t : Key} {n : Nat} (wf : w.WF) (h : systemTransfer s t n w = .ok w') : ExtStep w w' := by
  obtain ⟨h1, h2, h3, h4, rfl, h5⟩ := systemTransfer_ok h
  have ho : ∀ k, (((w.set s { w s with lamports := (w s).lamports - n }).set t
        { (w.set s { w s with lamports := (w s).lamports - n }) t with
          lamports := ((w.set s { w s with lamports := (w s).lamports - n }) t).lamports + n }) k).owner = (w k).owner := by
    intro k; simp only [World.set_apply]; split_ifs <;> simp_all
  refine Witness.extStep_of (Witness.wf_of wf ho fun k => ⟨?_, Or.inl ?_⟩) ho fun k hk => ⟨?_, ?_⟩
  · have b := (wf.1 s).1
    by_cases e : k = t
    · subst e; right; rw [World.set_apply, if_pos rfl]; exact h5
    · rw [World.set_apply, if_neg e, World.set_apply]
      split_ifs with e'
      · right; simp only; omega
      · left; rfl
  · simp only [World.set_apply]; split_ifs <;> simp_all
  · simp only [World.set_apply]; split_ifs <;> simp_all
  · have hks : k ≠ s := by
      rintro rfl
      rcases hk with hk | hk
      · rw [h1] at hk; exact absurd hk (by decide)
      · rw [h3] at hk; simp at hk
    by_cases e : k = t
    · subst e; rw [World.set_apply, if_pos rfl, World.set_apply, if_neg hks]; simp
    · rw [World.set_apply, if_neg e, World.set_apply, if_neg hks]

/-- The balances after a system transfer. -/
theorem systemTransfer_lamports {s t : Key} {n : Nat} (h : systemTransfer s t n w = .ok w') (hst : s ≠ t) (k : Key) :
    (w' k).lamports = (if k = t then (w k).lamports + n else if k = s then (w k).lamports - n else (w k).lamports) ∧
      (w' k).data = (w k).data ∧ (w' k).owner = (w k).owner := by
  obtain ⟨h1, h2, h3, h4, rfl, h5⟩ := systemTransfer_ok h
  by_cases e : k = t
  · subst e; rw [World.set_apply, if_pos rfl, World.set_apply, if_neg (Ne.symm hst)]; simp
  · rw [World.set_apply, if_neg e, World.set_apply]
    split_ifs with e'
    · subst e'; simp
    · simp

/-- **C99.** The way around it: first send the rent minimum to the authority, in the same transaction. If the instruction succeeds
after that transfer and every other account that it credits has its rent minimum, the transaction commits. -/
theorem C99_top_up (R : Reachable env w) (O : o.Ok) (K : o.KeepsRent env) {payer a : Key} {n : Nat} {w1 : World}
    (h1 : systemTransfer payer a n w = .ok w1) (h2 : exec env o w1 ix = .ok w') (hv : Vacant w a) (hne : payer ≠ a)
    (hn : env.rentMin 0 ≤ n) (hp : env.rentMin 0 + n ≤ (w payer).lamports) {writable : List Key}
    (hg : ∀ k ∈ writable, k ≠ a → (w1 k).lamports < (w' k).lamports → RentExempt env (w' k)) :
    (Tx.topUp payer a n o ix writable).run env w = .ok w' := by
  have I := reachable_inv R
  have e1 := systemTransfer_ext I.wf h1
  have I1 := reachable_inv (R.ext e1)
  have M := fun k => exec_mild I1 O K h2 k
  have hl := systemTransfer_lamports h1 hne
  rw [run_ok]
  refine ⟨by simp [Tx.topUp, runSteps, TxStep.run, h1, h2, bind, Except.bind], fun k hk => ?_⟩
  have keeps : RentExempt env (w1 k) → RentExempt env (w' k) := by
    intro hx
    rcases M k with h | ⟨h, h'⟩
    · exact h
    · unfold RentExempt at *; rw [h]; omega
  have hpay : k = payer → RentExempt env (w1 k) := by
    rintro rfl
    obtain ⟨h3, h4, _⟩ := hl k
    rw [if_neg hne, if_pos rfl] at h3
    have hd : (w k).data.len = 0 := by
      have := (systemTransfer_ok h1).2.1
      simp only [Data.isEmpty, decide_eq_true_eq] at this
      rw [this]; rfl
    unfold RentExempt; rw [h3, h4, hd]; omega
  have ha : k = a → RentExempt env (w1 k) := by
    rintro rfl
    obtain ⟨h3, h4, _⟩ := hl k
    rw [if_pos rfl] at h3
    unfold RentExempt; rw [h3, h4, hv.2.2]
    show env.rentMin 0 ≤ _
    omega
  have m1 : Mild env w w1 k := by
    by_cases e : k = payer
    · exact Or.inl (hpay e)
    · refine .of_data (hl k).2.1 ?_
      rw [(hl k).1, if_neg e]; split_ifs <;> omega
  rw [allowed_iff (m1.trans (M k))]
  intro hlt
  by_cases e : k = a
  · exact keeps (ha e)
  by_cases e' : k = payer
  · exact keeps (hpay e')
  refine hg k hk e ?_
  rw [(hl k).1, if_neg e, if_neg e']; exact hlt

/-- What the program reads of an account other than its lamports is the same after a transfer. -/
theorem systemTransfer_reads {s t : Key} {n : Nat} (h : systemTransfer s t n w = .ok w') (hst : s ≠ t) :
    configAt w' = configAt w ∧ stakeAt w' = stakeAt w ∧ validatorAt w' = validatorAt w ∧ solStakerAt w' = solStakerAt w ∧
      holderAt w' = holderAt w ∧ tokenAt w' = tokenAt w ∧ mintAt w' = mintAt w := by
  have hl := systemTransfer_lamports h hst
  have hd : ∀ k, (w' k).data = (w k).data := fun k => (hl k).2.1
  have ho : ∀ k, (w' k).owner = (w k).owner := fun k => (hl k).2.2
  refine ⟨?_, ?_, ?_, ?_, ?_, ?_, ?_⟩ <;> funext k <;>
    simp only [configAt, stakeAt, validatorAt, solStakerAt, holderAt, tokenAt, mintAt, hd, ho]

theorem systemTransfer_payable {s : Key} {n : Nat} {ck sk : Key} {c : Config} {d : Delegation}
    (h : systemTransfer s d.authority n w = .ok w') (hst : s ≠ d.authority) (P : Payable env w ck sk c d)
    (room : (w d.authority).lamports + n + accrued env w ck sk < 2 ^ 64) :
    Payable env w' ck sk c d ∧ accrued env w' ck sk = accrued env w ck sk := by
  obtain ⟨e1, e2, _, _, e5, _⟩ := systemTransfer_reads h hst
  have hl := systemTransfer_lamports h hst
  have hsc : ck ≠ s := by
    rintro rfl
    have := (configAt_eq.1 P.config).1
    rw [(systemTransfer_ok h).1] at this; exact absurd this (by decide)
  have el : (w' ck).lamports = (w ck).lamports := by
    rw [(hl ck).1, if_neg (Ne.symm P.payee), if_neg hsc]
  have eh : holderAcc env ck w' = holderAcc env ck w := by unfold holderAcc; rw [e5]
  have ea : accrued env w' ck sk = accrued env w ck sk := by
    rw [accrued_eq P.config P.stake P.belongs, accrued_eq (w := w') (by rw [e1]; exact P.config) (by rw [e2]; exact P.stake) P.belongs,
      el, eh]
  refine ⟨⟨by rw [e1]; exact P.config, by rw [e2]; exact P.stake, P.belongs, by rw [e5]; exact P.record, ?_, ?_, ?_, P.payee, ?_⟩, ea⟩
  · rw [el]; exact P.fitsStake
  · rw [eh]; exact P.fitsHolder
  · rw [el, ea]; exact P.funds
  · rw [ea, (hl _).1, if_pos rfl]; exact room

theorem vacant_not_token {a vault mk va : Key} (hvac : Vacant w a) (h1 : (w vault).owner = tokenId) (h2 : (w mk).owner = tokenId)
    (hva : a ≠ va) : a ∉ [vault, mk, va] := by
  have hvo := hvac.2.1
  simp only [List.mem_cons, List.not_mem_nil, or_false, not_or]
  refine ⟨fun e => ?_, fun e => ?_, hva⟩
  · rw [e, h1] at hvo; exact absurd hvo (by decide)
  · rw [e, h2] at hvo; exact absurd hvo (by decide)

theorem systemTransfer_accepted {s t : Key} {n : Nat} (ho : (w s).owner = systemId) (hd : (w s).data = .bytes [])
    (hk : s.ofProgram = false) (hn : n ≤ (w s).lamports) (hst : s ≠ t) (hr : (w t).lamports + n < 2 ^ 64) :
    ∃ w', systemTransfer s t n w = .ok w' := by
  have hU : (U64 : Nat) = 2 ^ 64 := rfl
  have h1 : (w.set s { w s with lamports := (w s).lamports - n }) t = w t := by
    rw [World.set_apply, if_neg (Ne.symm hst)]
  have h3 : (w t).lamports + n < U64 := by omega
  unfold systemTransfer
  simp only [h1]
  exact ⟨_, bind_ok.2 ⟨(), require_ok.2 ⟨ho, by simp [hd, Data.isEmpty], hk⟩, bind_ok.2 ⟨(), require_ok.2 hn,
    bind_ok.2 ⟨(), require_ok.2 h3, rfl⟩⟩⟩⟩

/-- The common part: an instruction that pays nobody but the authority commits after the top-up. -/
theorem topUp_commits (R : Reachable env w) (O : o.Ok) (K : o.KeepsRent env) {ck sk payer : Key} {c : Config} {d : Delegation}
    (P : Payable env w ck sk c d) (hvac : Vacant w d.authority) (B : Wallet w payer) (hne : payer ≠ d.authority)
    (hp : env.rentMin 0 + env.rentMin 0 ≤ (w payer).lamports) (room : env.rentMin 0 + accrued env w ck sk < 2 ^ 64)
    (hacc : ∀ w1, systemTransfer payer d.authority (env.rentMin 0) w = .ok w1 → Reachable env w1 → Payable env w1 ck sk c d →
      ∃ w', exec env o w1 ix = .ok w' ∧ ∀ k, (w' k).lamports + (if k = ck then accrued env w1 ck sk else 0) =
          (w1 k).lamports + (if k = d.authority then accrued env w1 ck sk else 0)) (writable : List Key) :
    ∃ w', (Tx.topUp payer d.authority (env.rentMin 0) o ix writable).run env w = .ok w' := by
  obtain ⟨w1, h1⟩ := systemTransfer_accepted (w := w) (n := env.rentMin 0) B.1 B.2.1 B.2.2 (by omega) hne (by rw [hvac.1]; omega)
  have R1 := R.ext (systemTransfer_ext (reachable_inv R).wf h1)
  obtain ⟨P1, ea⟩ := systemTransfer_payable h1 hne P (by rw [hvac.1]; omega)
  obtain ⟨w2, h2, hm⟩ := hacc w1 h1 R1 P1
  refine ⟨w2, C99_top_up R O K h1 h2 hvac hne le_rfl hp fun k _ hk hlt => ?_⟩
  have := hm k
  rw [if_neg hk] at this
  omega

/-- **C99.** So anybody can harvest for a validator whose authority has no account: under the conditions of C54, the harvest
commits when somebody first sends the rent minimum to that authority in the same transaction. -/
theorem C99_harvest_after_top_up (R : Reachable env w) (O : o.Ok) (K : o.KeepsRent env)
    (hi : ix.decoded = some .harvestValidatorRewards) {ck sk payer : Key} {c : Config} {v : ValidatorStake} {rest : List Key}
    (hl : ix.ctx.accts = ck :: vaultRecord env ck :: sk :: v.del.authority :: rest) (hv : validatorAt w sk = some v)
    (P : Payable env w ck sk c v.del) (hw : ix.Writes [ck, sk, v.del.authority])
    (hvac : Vacant w v.del.authority) (B : Wallet w payer) (hne : payer ≠ v.del.authority)
    (hp : env.rentMin 0 + env.rentMin 0 ≤ (w payer).lamports) (room : env.rentMin 0 + accrued env w ck sk < 2 ^ 64)
    (writable : List Key) : ∃ w', (Tx.topUp payer v.del.authority (env.rentMin 0) o ix writable).run env w = .ok w' := by
  refine topUp_commits R O K P hvac B hne hp room (fun w1 h1 R1 P1 => ?_) writable
  obtain ⟨r1, r2, r3, r4, r5, r6, r7⟩ := systemTransfer_reads h1 hne
  have hv1 : validatorAt w1 sk = some v := by rw [r3]; exact hv
  obtain ⟨w2, h2⟩ := C54_harvest_validator_accepted (o := o) R1 hi hl hv1 P1 hw
  obtain ⟨c1, v1, _, h3, _, hm, _⟩ := C19_validator_harvest R1 h2 hi (by simp [Ix.acct, hl] : ix.acct 0 = some ck)
    (by simp [Ix.acct, hl] : ix.acct 2 = some sk)
  rw [hv1] at h3
  exact ⟨w2, h2, by rw [Option.some.inj h3]; exact hm⟩

/-- **C99.** And the slash authority can slash such a validator, under the conditions of C57. -/
theorem C99_slash_after_top_up (R : Reachable env w) (O : o.Ok) (K : o.KeepsRent env) {n : Nat}
    (hi : ix.decoded = some (.slashValidatorStake n))
    {ck sk mk payer : Key} {c : Config} {v : ValidatorStake} {t : TokenAccount} {mi : Mint} {rest : List Key}
    (hl : ix.ctx.accts = ck :: sk :: v.del.authority :: c.slashAuthority :: c.vault :: vaultRecord env ck ::
      env.vaultAuth ck :: mk :: tokenId :: rest)
    (hset : c.slashAuthority ≠ .default) (hsig : ix.ctx.signer c.slashAuthority = true)
    (hv : validatorAt w sk = some v) (P : Payable env w ck sk c v.del) (hn : 0 < n)
    (S : Spendable w c.vault mk (env.vaultAuth ck) t (min n v.del.staked)) (hm : mintAt w mk = some mi)
    (hmO : (w mk).owner = tokenId) (hs : min n v.del.staked ≤ mi.supply)
    (F : Fits c v.del (v.del.staked - min n v.del.staked) (max v.total v.min))
    (hw : ix.Writes [ck, sk, v.del.authority, c.vault, mk])
    (hvac : Vacant w v.del.authority) (hva : v.del.authority ≠ env.vaultAuth ck)
    (B : Wallet w payer) (hne : payer ≠ v.del.authority)
    (hp : env.rentMin 0 + env.rentMin 0 ≤ (w payer).lamports) (room : env.rentMin 0 + accrued env w ck sk < 2 ^ 64)
    (writable : List Key) : ∃ w', (Tx.topUp payer v.del.authority (env.rentMin 0) o ix writable).run env w = .ok w' := by
  refine topUp_commits R O K P hvac B hne hp room (fun w1 h1 R1 P1 => ?_) writable
  obtain ⟨r1, r2, r3, r4, r5, r6, r7⟩ := systemTransfer_reads h1 hne
  have hll := systemTransfer_lamports h1 hne
  have hpay := vacant_not_token hvac S.owned hmO hva
  have S1 : Spendable w1 c.vault mk (env.vaultAuth ck) t (min n v.del.staked) :=
    ⟨by rw [r6]; exact S.token, by rw [(hll _).2.2]; exact S.owned, S.mint_eq, S.notFrozen, S.authority, S.noDelegate, S.enough⟩
  obtain ⟨w2, h2⟩ := C57_slash_validator_accepted (o := o) R1 hi hl hset hsig (by rw [r3]; exact hv) P1 hn S1 (by rw [r7]; exact hm)
    (by rw [(hll _).2.2]; exact hmO) hs F hw (Or.inl hpay)
  obtain ⟨c1, d1, d', _, hd1, _, _, _, _, _, hmv⟩ := C50_slash R1 h2 (Or.inl hi) (by simp [Ix.acct, hl] : ix.acct 0 = some ck)
    (by simp [Ix.acct, hl] : ix.acct 1 = some sk) (by unfold authorityOf; rw [P1.stake]; simpa using P.payee)
  rw [P1.stake] at hd1
  exact ⟨w2, h2, by rw [Option.some.inj hd1]; exact hmv⟩

/-- **C99.** The same for a SOL staker. -/
theorem C99_slash_sol_staker_after_top_up (R : Reachable env w) (O : o.Ok) (K : o.KeepsRent env) {n : Nat}
    (hi : ix.decoded = some (.slashSolStakerStake n))
    {ck sk mk payer : Key} {c : Config} {v : SolStakerStake} {t : TokenAccount} {mi : Mint} {rest : List Key}
    (hl : ix.ctx.accts = ck :: sk :: v.del.authority :: c.slashAuthority :: mk :: c.vault :: vaultRecord env ck ::
      env.vaultAuth ck :: tokenId :: rest)
    (hset : c.slashAuthority ≠ .default) (hsig : ix.ctx.signer c.slashAuthority = true)
    (hv : solStakerAt w sk = some v) (P : Payable env w ck sk c v.del) (hn : 0 < n)
    (S : Spendable w c.vault mk (env.vaultAuth ck) t (min n v.del.staked)) (hm : mintAt w mk = some mi)
    (hmO : (w mk).owner = tokenId) (hs : min n v.del.staked ≤ mi.supply)
    (F : Fits c v.del (v.del.staked - min n v.del.staked) v.lamports)
    (hw : ix.Writes [ck, sk, v.del.authority, c.vault, mk])
    (hvac : Vacant w v.del.authority) (hva : v.del.authority ≠ env.vaultAuth ck)
    (B : Wallet w payer) (hne : payer ≠ v.del.authority)
    (hp : env.rentMin 0 + env.rentMin 0 ≤ (w payer).lamports) (room : env.rentMin 0 + accrued env w ck sk < 2 ^ 64)
    (writable : List Key) : ∃ w', (Tx.topUp payer v.del.authority (env.rentMin 0) o ix writable).run env w = .ok w' := by
  refine topUp_commits R O K P hvac B hne hp room (fun w1 h1 R1 P1 => ?_) writable
  obtain ⟨r1, r2, r3, r4, r5, r6, r7⟩ := systemTransfer_reads h1 hne
  have hll := systemTransfer_lamports h1 hne
  have hpay := vacant_not_token hvac S.owned hmO hva
  have S1 : Spendable w1 c.vault mk (env.vaultAuth ck) t (min n v.del.staked) :=
    ⟨by rw [r6]; exact S.token, by rw [(hll _).2.2]; exact S.owned, S.mint_eq, S.notFrozen, S.authority, S.noDelegate, S.enough⟩
  obtain ⟨w2, h2⟩ := C57_slash_sol_staker_accepted (o := o) R1 hi hl hset hsig (by rw [r4]; exact hv) P1 hn S1 (by rw [r7]; exact hm)
    (by rw [(hll _).2.2]; exact hmO) hs F hw (Or.inl hpay)
  obtain ⟨c1, d1, d', _, hd1, _, _, _, _, _, hmv⟩ := C50_slash R1 h2 (Or.inr hi) (by simp [Ix.acct, hl] : ix.acct 0 = some ck)
    (by simp [Ix.acct, hl] : ix.acct 1 = some sk) (by unfold authorityOf; rw [P1.stake]; simpa using P.payee)
  rw [P1.stake] at hd1
  exact ⟨w2, h2, by rw [Option.some.inj hd1]; exact hmv⟩

/-! ### A concrete case

The state of C57's example, except that the authority of the first validator has spent its last lamport. It is owed 12000; the rent
minimum of a wallet is 890880. -/

/-- The reference rewards program, with nothing to pay to holders. -/
def quietOracle : Oracle := oracle 2000 view2 0

theorem quiet_ok : quietOracle.Ok := oracle_ok fun h => o2_ok.view h

theorem quiet_rent : quietOracle.KeepsRent Witness.env := by
  constructor
  · intro w c w' h k
    right
    simp only [quietOracle, oracle, harvestRewards] at h
    split at h
    · rename_i hh hd
      split_ifs at h
      rw [← Except.ok.inj h]
      simp only [World.set_apply]
      split_ifs with h1 h2 h3
      · subst h1; simp [hd, Data.len]
      · subst h2; simp
      · subst h3; simp
      · simp
    · simp at h
  · intro w c w' h k
    right
    simp only [quietOracle, oracle, deposit] at h
    split at h
    · rename_i t p hh d1 d2 d3
      split_ifs at h
      rw [← Except.ok.inj h]
      simp only [World.set_apply]
      split_ifs with h1 h2 h3
      · subst h1; simp [d3, Data.len]
      · subst h2; simp [d2, Data.len]
      · subst h3; simp [d1, Data.len]
      · simp
    · simp at h
  · intro w c w' h k
    right
    simp only [quietOracle, oracle, withdraw] at h
    split at h
    · rename_i t p hh d1 d2 d3
      split_ifs at h
      rw [← Except.ok.inj h]
      simp only [World.set_apply]
      split_ifs with h1 h2 h3
      · subst h1; simp [d3, Data.len]
      · subst h2; simp [d2, Data.len]
      · subst h3; simp [d1, Data.len]
      · simp
    · simp at h

theorem quiet_lamports (k : Key) : quietOracle.NoLamports k := by
  intro u c u' h
  rcases h with h | h
  · simp only [quietOracle, oracle, deposit] at h
    split at h
    · split_ifs at h
      rw [← Except.ok.inj h]
      simp only [World.set_apply]
      split_ifs with h1 h2 h3 <;> simp_all
    · simp at h
  · simp only [quietOracle, oracle, withdraw] at h
    split at h
    · split_ifs at h
      rw [← Except.ok.inj h]
      simp only [World.set_apply]
      split_ifs with h1 h2 h3 <;> simp_all
    · simp at h

/-- The keeper's wallet is filled and that of the first validator's authority is emptied. -/
def broke9 : World := (credit z9 keeper 2000000).set auth1 ⟨0, systemId, .bytes []⟩

theorem rbroke9 : Reachable Witness.env broke9 := by
  have R1 : Reachable Witness.env (credit z9 keeper 2000000) :=
    .ext rz9 (credit_ext (reachable_inv rz9).wf (by decide +kernel))
  have wf := (reachable_inv R1).wf
  have o1 : (credit z9 keeper 2000000 auth1).owner = systemId := by decide +kernel
  have d1 : (credit z9 keeper 2000000 auth1).data = .bytes [] := by decide +kernel
  have ho : ∀ k, (broke9 k).owner = (credit z9 keeper 2000000 k).owner := by
    intro k; simp only [broke9, World.set_apply]; split_ifs with e
    · rw [e, o1]
    · rfl
  refine .ext R1 (Witness.extStep_of (Witness.wf_of wf ho fun k => ⟨?_, Or.inl ?_⟩) ho fun k hk => ?_)
  · simp only [broke9, World.set_apply]; split_ifs with e
    · exact Or.inr (by decide)
    · exact Or.inl rfl
  · simp only [broke9, World.set_apply]; split_ifs with e
    · rw [e, d1]
    · rfl
  · have e : k ≠ auth1 := by
      rintro rfl
      rcases hk with hk | hk
      · rw [o1] at hk; exact absurd hk (by decide)
      · exact absurd hk (by decide)
    rw [broke9, World.set_apply, if_neg e]; exact ⟨rfl, le_rfl⟩

theorem vbroke9 : Vacant broke9 auth1 := ⟨by decide +kernel, by decide +kernel, by decide +kernel⟩

theorem single_ok (i : StakeInstruction) (l signers : List Key) : (Tx.single quietOracle (Witness.ix i l signers) l).Ok where
  oracle := by
    intro o ix h
    simp only [Tx.single, List.mem_singleton, TxStep.stake.injEq] at h
    rw [h.1]; exact quiet_ok
  other := by intro f w w' h; simp [Tx.single] at h
  writable := by
    intro o ix h k hk _
    simp only [Tx.single, List.mem_singleton, TxStep.stake.injEq] at h
    rw [h.2] at hk; exact hk

theorem rentMin_mono (n : Nat) : Witness.env.rentMin 0 ≤ Witness.env.rentMin n := by
  show (128 + 0) * 6960 ≤ (128 + n) * 6960
  omega

/-- Neither a harvest nor a slash commits, although the handlers accept them. -/
example : accrued Witness.env broke9 cfg val1 = 12000 ∧
    (∃ w', exec Witness.env quietOracle broke9 ixHarvestVal1 = .ok w') ∧ (∃ w', exec Witness.env quietOracle broke9 ixSlashVal1 = .ok w') ∧
    (∀ w', (Tx.single quietOracle ixHarvestVal1 [cfg, holder, val1, auth1]).run Witness.env broke9 ≠ .ok w') ∧
    ∀ w', (Tx.single quietOracle ixSlashVal1
      [cfg, val1, auth1, slashAuth, vault, holder, vaultAuth, mint, tokenId]).run Witness.env broke9 ≠ .ok w' := by
  have ha : accrued Witness.env broke9 cfg val1 = 12000 := by decide +kernel
  have hd : stakeAt broke9 val1 = some (valOf broke9 val1).del := by decide +kernel
  have hau : (valOf broke9 val1).del.authority = auth1 := by decide +kernel
  refine ⟨ha, ⟨_, ok_after (by decide +kernel)⟩, ⟨_, ok_after (by decide +kernel)⟩, fun w' => ?_, fun w' => ?_⟩
  · refine C99_small_reward_refused rbroke9 quiet_ok quiet_rent (oracle_local _ _ _) (ck := cfg) (sk := val1)
      ⟨by decide +kernel, ?_⟩ hd (quiet_lamports _) (by rw [hau]; exact vbroke9)
      (by rw [ha]; decide) (by rw [ha]; decide) rentMin_mono (single_ok _ _ _)
    rw [show ixHarvestVal1.decoded = some .harvestValidatorRewards by decide +kernel]; decide +kernel
  · refine C99_small_reward_refused rbroke9 quiet_ok quiet_rent (oracle_local _ _ _) (ck := cfg) (sk := val1)
      ⟨by decide +kernel, ?_⟩ hd (quiet_lamports _) (by rw [hau]; exact vbroke9)
      (by rw [ha]; decide) (by rw [ha]; decide) rentMin_mono (single_ok _ _ _)
    rw [show ixSlashVal1.decoded = some (.slashValidatorStake 300) by decide +kernel]; decide +kernel

/-- Both commit once the keeper sends 890880 lamports to the authority in the same transaction. -/
example (l : List Key) : (∃ w', (Tx.topUp keeper auth1 (Witness.env.rentMin 0) quietOracle ixHarvestVal1 l).run Witness.env broke9 = .ok w') ∧
    ∃ w', (Tx.topUp keeper auth1 (Witness.env.rentMin 0) quietOracle ixSlashVal1 l).run Witness.env broke9 = .ok w' := by
  have hau : (valOf broke9 val1).del.authority = auth1 := by decide +kernel
  have hv : Vacant broke9 (valOf broke9 val1).del.authority := by rw [hau]; exact vbroke9
  have hB : Wallet broke9 keeper := ⟨by decide +kernel, by decide +kernel, by decide +kernel⟩
  constructor
  · have := C99_harvest_after_top_up rbroke9 quiet_ok quiet_rent (ix := ixHarvestVal1) (by decide +kernel) (ck := cfg) (sk := val1)
      (payer := keeper) (c := cfgOf broke9 cfg) (v := valOf broke9 val1) (rest := []) (by decide +kernel) (by decide +kernel)
      (payable_mk (belongs_val _ _) (by decide +kernel)) (ix_writes _ _ _ _) hv hB (by decide +kernel) (by decide +kernel)
      (by decide +kernel) l
    rwa [hau] at this
  · have := C99_slash_after_top_up rbroke9 quiet_ok quiet_rent (ix := ixSlashVal1) (n := 300) (by decide +kernel) (ck := cfg)
      (sk := val1) (mk := mint) (payer := keeper) (c := cfgOf broke9 cfg) (v := valOf broke9 val1) (t := tokOf broke9 vault)
      (mi := mintOf broke9 mint) (rest := []) (by decide +kernel) (by decide +kernel) (by decide +kernel) (by decide +kernel)
      (payable_mk (belongs_val _ _) (by decide +kernel)) (by decide) (spendable_mk (by decide +kernel))
      (by decide +kernel) (by decide +kernel) (by decide +kernel) (by unfold Fits; decide +kernel) (ix_writes _ _ _ _) hv
      (by decide +kernel) hB (by decide +kernel) (by decide +kernel) (by decide +kernel) l
    rwa [hau] at this

/-- C98 on a transaction of two instructions, a transfer of the system program and a harvest. -/
example : ∃ w', (Tx.topUp keeper auth1 (Witness.env.rentMin 0) quietOracle ixHarvestVal1
      [keeper, cfg, holder, val1, auth1]).run Witness.env broke9 = .ok w' ∧
    (w' auth1).lamports = 902880 ∧ Reachable Witness.env w' := by
  have T : (Tx.topUp keeper auth1 (Witness.env.rentMin 0) quietOracle ixHarvestVal1 [keeper, cfg, holder, val1, auth1]).Ok := by
    refine ⟨fun h => ?_, fun h wf hf => ?_, fun h k hk _ => ?_⟩
    · simp only [Tx.topUp, List.mem_cons, reduceCtorEq, TxStep.stake.injEq, List.not_mem_nil, or_false, false_or] at h
      rw [h.1]; exact quiet_ok
    · simp only [Tx.topUp, List.mem_cons, reduceCtorEq, TxStep.other.injEq, List.not_mem_nil, or_false] at h
      rw [h] at hf; exact systemTransfer_ext wf hf
    · simp only [Tx.topUp, List.mem_cons, reduceCtorEq, TxStep.stake.injEq, List.not_mem_nil, or_false, false_or] at h
      rw [h.2] at hk; exact List.mem_cons_of_mem _ hk
  have key : ((Tx.topUp keeper auth1 (Witness.env.rentMin 0) quietOracle ixHarvestVal1
      [keeper, cfg, holder, val1, auth1]).run Witness.env broke9).toOption.map (fun w => (w auth1).lamports) = some 902880 := by
    decide +kernel
  cases h : (Tx.topUp keeper auth1 (Witness.env.rentMin 0) quietOracle ixHarvestVal1
      [keeper, cfg, holder, val1, auth1]).run Witness.env broke9 with
  | error e => rw [h] at key; simp [Except.toOption] at key
  | ok w' =>
    rw [h] at key
    exact ⟨w', rfl, by simpa [Except.toOption] using key, (C98_history rbroke9 T h).2⟩

/-- **C100.** An authority that cannot be written blocks settlement for good. Solana lets no transaction write to the addresses it
reserves for built-in programs and sysvars, and nothing keeps a stake's authority from being one of them. While a reward is due to such
an authority, no instruction that settles the stake succeeds, whoever sends it: neither a harvest, nor a slash, nor an override. -/
theorem C100_unwritable_authority (R : Reachable env w) (O : o.Ok) (L : o.Local) {ck sk : Key} (hs : ix.Settles ck sk)
    {d : Delegation} (hd : stakeAt w sk = some d) (hself : d.authority ≠ ck) (hq : o.NoLamports d.authority)
    (hw : ix.ctx.writable d.authority = false) (h0 : 0 < accrued env w ck sk) : exec env o w ix ≠ .ok w' := by
  intro h
  obtain ⟨_, _, hm⟩ := settles_pays R O h hs hd hself hq
  rw [if_neg hself, if_pos rfl] at hm
  have hne : w' d.authority ≠ w d.authority := by
    intro e; rw [e] at hm; omega
  obtain ⟨⟨i, hi, _⟩, hwr, _⟩ := exec_ok h
  have hmem : d.authority ∈ ix.ctx.accts := by
    by_contra hn
    exact hne (C63_footprint R L h hi fun p _ hp => hn (List.mem_of_getElem? hp))
  exact hne ((hwr _ hmem).resolve_left (by simp [hw]))

/-- The slash of C57's example, if the runtime does not let the validator's authority be written. -/
def ixSlashRO : Ix :=
  { ixSlashVal1 with ctx := { ixSlashVal1.ctx with writable := fun k => k ≠ auth1 } }

example : accrued Witness.env z9 cfg val1 = 12000 ∧ (∃ w', exec Witness.env quietOracle z9 ixSlashVal1 = .ok w') ∧
    ∀ w', exec Witness.env quietOracle z9 ixSlashRO ≠ .ok w' := by
  have ha : accrued Witness.env z9 cfg val1 = 12000 := by decide +kernel
  have hd : stakeAt z9 val1 = some (valOf z9 val1).del := by decide +kernel
  refine ⟨ha, ⟨_, ok_after (by decide +kernel)⟩, fun w' => ?_⟩
  refine C100_unwritable_authority rz9 quiet_ok (oracle_local _ _ _) (ck := cfg) (sk := val1) ⟨by decide +kernel, ?_⟩ hd
    (by decide +kernel) (quiet_lamports _) (by decide +kernel) (by rw [ha]; decide)
  rw [show ixSlashRO.decoded = some (.slashValidatorStake 300) by decide +kernel]; decide +kernel

end Verif.Props
