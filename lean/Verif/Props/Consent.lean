import Verif.SpecDuna
import Verif.Props.Exactly
import Verif.Props.Effects
import Verif.Props.Sync
import Verif.Props.Isolation
import Verif.Props.Authority
/-!
# C110: who has signed the governing document
-/

namespace Verif.Props

open Verif Verif.Witness

variable {env : Env} {o : Oracle} {w w' : World} {ix : Ix}

/-- A stake account that appears belongs to somebody who has signed. -/
theorem signed_at_creation (R : Reachable env w) (O : o.Ok) (h : exec env o w ix = .ok w') {s ck : Key} {d : Delegation}
    (hn : stakeAt w s = none) (hd : stakeAt w' s = some d) (hb : belongs s ck) :
    ∃ c, configAt w ck = some c ∧ SignedDoc w d.authority c.dunaHash := by
  obtain ⟨_, _, _, hi | hi⟩ := effect_new (exec_effect (reachable_inv R) O h) hn hd
  · obtain ⟨ck', vote, c, wd, b, v, h0, h3, hc, _, _, hdoc, h2, _, hv, _, _, _, _, ha, _⟩ := C26_validator_stake h hi
    obtain ⟨a, rest, hl, _⟩ := ran_initializeValidatorStake h hi
    have e2 : a.validatorStake = .validatorPda vote ck' := by
      simpa [Ix.acct, hl, InitializeValidatorStakeAccts.list] using h2
    obtain ⟨_, _, _, _, he⟩ := C105_initialize_validator h hi (rest := rest) (by rw [hl]; rfl)
    by_cases hs : s = .validatorPda vote ck'
    · subst hs
      have : ck' = ck := by simpa [belongs] using hb
      subst this
      rw [stakeAt_of_validator hv] at hd; cases hd
      exact ⟨c, hc, b, by rw [ha]; exact hdoc⟩
    · rw [stakeAt_eq', he s (by rw [e2]; exact hs), ← stakeAt_eq', hn] at hd; cases hd
  · obtain ⟨ck', native, c, view, b, x, h0, h3, hc, _, _, hdoc, h2, _, hv, _, _, _, ha, _⟩ := C26_sol_staker_stake R h hi
    obtain ⟨a, rest, hl, _⟩ := ran_initializeSolStakerStake h hi
    have e2 : a.solStakerStake = .solStakerPda native ck' := by
      simpa [Ix.acct, hl, InitializeSolStakerStakeAccts.list] using h2
    obtain ⟨_, _, _, _, _, hvs, _, _, he⟩ := C105_initialize_sol_staker R h hi (rest := rest) (by rw [hl]; rfl)
    by_cases hs : s = .solStakerPda native ck'
    · subst hs
      have : ck' = ck := by simpa [belongs] using hb
      subst this
      rw [stakeAt_of_solStaker hv] at hd; cases hd
      exact ⟨c, hc, b, by rw [ha]; exact hdoc⟩
    · have hs2 : s ≠ a.validatorStake := by
        rintro rfl; rw [stakeAt_of_validator hvs] at hn; cases hn
      rw [stakeAt_eq', he s (by rw [e2]; exact hs) hs2, ← stakeAt_eq', hn] at hd; cases hd

/-- The hash of the document of a config that exists before a step. -/
theorem hash_kept (R : Reachable env w) (T : Step env w w') {ck : Key} {c c' : Config} (hc : configAt w ck = some c)
    (hc' : configAt w' ck = some c') : c'.dunaHash = c.dunaHash := by
  obtain ⟨c1, h1, _, _, h2⟩ := C11_fixed_at_creation R (.tail .refl T) hc
  rw [hc'] at h1; cases h1; exact h2

/-- Where the authority of a stake account comes from. -/
theorem consent_stake (R : Reachable env w) {s ck : Key} {d : Delegation} {c : Config} (hd : stakeAt w s = some d)
    (hb : belongs s ck) (hc : configAt w ck = some c) :
    ∃ w1, Reachable env w1 ∧ Steps env w1 w ∧
      ((stakeAt w1 s = none ∧ SignedDoc w1 d.authority c.dunaHash) ∨ SyncedTo env s d.authority w1 w) := by
  induction R generalizing d c with
  | @genesis w G =>
    have ho : s.ofProgram = true := by rcases hb with ⟨_, rfl⟩ | ⟨_, rfl⟩ <;> rfl
    have h1 := (stakeAt_eq.1 hd).1
    rw [(G.derived s ho).1] at h1
    exact absurd h1 (by decide)
  | @ext w w' R E ih =>
    rw [stakeAt_congr (ext_st (reachable_inv R) E s)] at hd
    rw [configAt_congr (ext_st (reachable_inv R) E ck)] at hc
    obtain ⟨w1, h1, h2, h3⟩ := ih hd hc
    refine ⟨w1, h1, .tail h2 (.ext E), h3.imp id ?_⟩
    rintro ⟨o, ix, w2, vote, ck, g1, g2, g3, g4⟩
    exact ⟨o, ix, w2, vote, ck, g1, g2, .tail g3 (.ext E), g4⟩
  | @exec w w' o ix R O h ih =>
    cases hs : stakeAt w s with
    | none =>
      obtain ⟨c0, h0, h1⟩ := signed_at_creation R O h hs hd hb
      rw [hash_kept R (.exec O h) h0 hc]
      exact ⟨w, R, .tail .refl (.exec O h), Or.inl ⟨hs, h1⟩⟩
    | some e =>
      obtain ⟨c0, h0⟩ : ∃ c0, configAt w ck = some c0 := by
        cases hk : configAt w ck with
        | none => rw [(reachable_inv R).no_stake hk hb] at hs; cases hs
        | some c0 => exact ⟨c0, rfl⟩
      by_cases ha : d.authority = e.authority
      · obtain ⟨w1, h1, h2, h3⟩ := ih hs h0
        rw [hash_kept R (.exec O h) h0 hc, ha]
        refine ⟨w1, h1, .tail h2 (.exec O h), h3.imp id ?_⟩
        rintro ⟨o', ix', w2, vote, ck, g1, g2, g3, g4⟩
        exact ⟨o', ix', w2, vote, ck, g1, g2, .tail g3 (.exec O h), g4⟩
      · have hi : ix.decoded = some .validatorSyncAuthority := by
          obtain ⟨d', h1, D⟩ := effect_del (exec_effect (reachable_inv R) O h) hs
          rw [hd] at h1; cases h1
          cases D with
          | sync _ _ _ hi => exact hi
          | same _ _ h => exact absurd h ha
          | stake _ _ _ _ _ _ _ _ h => exact absurd h ha
          | slash _ _ _ _ _ _ _ _ _ _ _ _ h => exact absurd h ha
          | unstake _ _ _ _ _ _ _ _ h => exact absurd h ha
          | moveFrom _ _ _ _ _ _ _ _ _ _ h => exact absurd h ha
          | moveTo _ _ _ _ _ _ _ _ _ _ h => exact absurd h ha
        obtain ⟨a, rest, hl, hr⟩ := ran_validatorSyncAuthority h hi
        obtain ⟨x, wd, _, _, hk, hx, ho, hw, _, rfl⟩ := validatorSyncAuthority_ok hr
        by_cases hsa : s = a.validatorStake
        · subst hsa
          have hau : wd = d.authority := by
            have := (stakeAt_eq.1 hd).2
            simp only [World.setD_data, if_pos, Data.del?, Option.some.injEq] at this
            rw [← this]
          subst hau
          exact ⟨w, R, .tail .refl (.exec O h), Or.inr ⟨o, ix, _, a.validatorVote, a.config, O, h, .refl, hi, hk,
            by simp [Ix.acct, hl, ValidatorSyncAuthorityAccts.list], ho, hw⟩⟩
        · refine absurd ?_ ha
          rw [stakeAt_eq', World.setD, World.set_apply, if_neg hsa, ← stakeAt_eq', hs] at hd
          cases hd; rfl

/-- **C110.** The authority of every SOL staker stake account signed the document of its config, and did so before the account was
created. -/
theorem C110_sol_staker_signed (R : Reachable env w) {s ck : Key} {x : SolStakerStake} {c : Config}
    (hx : solStakerAt w s = some x) (hb : belongs s ck) (hc : configAt w ck = some c) :
    ∃ w1, Reachable env w1 ∧ Steps env w1 w ∧ stakeAt w1 s = none ∧ SignedDoc w1 x.del.authority c.dunaHash := by
  obtain ⟨w1, h1, h2, h3 | ⟨_, _, _, vote, k, _, _, _, _, rfl, _⟩⟩ := consent_stake R (stakeAt_of_solStaker hx) hb hc
  · exact ⟨w1, h1, h2, h3⟩
  · obtain ⟨ho, hd⟩ := solStakerAt_eq.1 hx
    obtain ⟨v, hv, _⟩ := (reachable_inv R).shape _ ho
    rw [hv] at hd; cases hd

/-- **C110.** The authority of every validator stake account signed the document of its config before the account was created, or became
the authority by a ValidatorSyncAuthority after it had become the withdraw authority of the vote account. -/
theorem C110_validator_signed_or_synced (R : Reachable env w) {s ck : Key} {v : ValidatorStake} {c : Config}
    (hv : validatorAt w s = some v) (hb : belongs s ck) (hc : configAt w ck = some c) :
    ∃ w1, Reachable env w1 ∧ Steps env w1 w ∧
      ((stakeAt w1 s = none ∧ SignedDoc w1 v.del.authority c.dunaHash) ∨ SyncedTo env s v.del.authority w1 w) :=
  consent_stake R (stakeAt_of_validator hv) hb hc

/-- Such a history is one of the histories of the chain. -/
theorem _root_.Verif.NeverSigned.reachable {party : Key} {hash : List UInt8} (N : NeverSigned env party hash w) : Reachable env w := by
  induction N with
  | genesis G _ => exact .genesis G
  | step _ T _ ih =>
    cases T with
    | ext E => exact .ext ih E
    | exec O h => exact .exec ih O h

theorem _root_.Verif.NeverSigned.unsigned {party : Key} {hash : List UInt8} (N : NeverSigned env party hash w) : ¬ SignedDoc w party hash := by
  cases N <;> assumption

/-- **C110.** So whoever has never signed is not the authority of any SOL staker stake account. -/
theorem C110_never_signed_no_sol_staker {party : Key} {hash : List UInt8} (N : NeverSigned env party hash w) {s ck : Key}
    {x : SolStakerStake} {c : Config} (hx : solStakerAt w s = some x) (hb : belongs s ck) (hc : configAt w ck = some c)
    (hh : c.dunaHash = hash) : x.del.authority ≠ party := by
  induction N generalizing x c with
  | @genesis w G _ =>
    have h1 := (solStakerAt_eq.1 hx).1
    rw [(G.derived s (by rcases hb with ⟨_, rfl⟩ | ⟨_, rfl⟩ <;> rfl)).1] at h1
    exact absurd h1 (by decide)
  | @step w w' N T _ ih =>
    have R := N.reachable
    cases T with
    | ext E =>
      rw [solStakerAt_congr (ext_st (reachable_inv R) E s)] at hx
      rw [configAt_congr (ext_st (reachable_inv R) E ck)] at hc
      exact ih hx hc hh
    | exec O h =>
      cases hs : stakeAt w s with
      | none =>
        obtain ⟨c0, h0, h1⟩ := signed_at_creation R O h hs (stakeAt_of_solStaker hx) hb
        rw [← hash_kept R (.exec O h) h0 hc, hh] at h1
        rintro rfl
        exact N.unsigned h1
      | some e =>
        obtain ⟨c0, h0⟩ : ∃ c0, configAt w ck = some c0 := by
          cases hk : configAt w ck with
          | none => rw [(reachable_inv R).no_stake hk hb] at hs; cases hs
          | some c0 => exact ⟨c0, rfl⟩
        obtain ⟨y, hy⟩ : ∃ y, solStakerAt w s = some y := by
          cases hy : solStakerAt w s with
          | some y => exact ⟨y, rfl⟩
          | none =>
            cases hv : validatorAt w s with
            | none => simp [stakeAt, hv, hy] at hs
            | some v =>
              obtain ⟨v', hv', _⟩ := (effect_ident (reachable_inv R) (exec_effect (reachable_inv R) O h)).1 s v hv
              have e1 := (validatorAt_eq.1 hv').2
              rw [(solStakerAt_eq.1 hx).2] at e1; cases e1
        obtain ⟨x', hx', e⟩ := C08_solStaker_authority_fixed R (.tail .refl (.exec O h)) hy
        rw [hx] at hx'; cases hx'
        rw [e]
        exact ih hy h0 ((hash_kept R (.exec O h) h0 hc).symm.trans hh)

/-- **C110.** But whoever has never signed can become the authority of any validator stake account whose vote account still exists:
the vote account names them as withdraw authority and anybody syncs. They still have not signed. -/
theorem C110_sync_needs_no_signature {party : Key} {hash : List UInt8} (N : NeverSigned env party hash w) (O : o.Ok)
    {vote ck : Key} (hv : validatorAt w (.validatorPda vote ck) ≠ none) (ho : (w vote).owner = voteId)
    (hi : ix.decoded = some .validatorSyncAuthority) {rest : List Key}
    (hl : ix.ctx.accts = ck :: .validatorPda vote ck :: vote :: rest)
    (hw : ix.ctx.writable (.validatorPda vote ck) = true) :
    ∃ w1 w2, ExtStep w w1 ∧ exec env o w1 ix = .ok w2 ∧ NeverSigned env party hash w2 ∧
      authorityOf w2 (.validatorPda vote ck) = some party := by
  have R := N.reachable
  have I := reachable_inv R
  obtain ⟨v, hv⟩ := Option.ne_none_iff_exists'.1 hv
  have hof : vote.ofProgram = false := by
    by_contra hk
    have := (I.unowned vote (by simpa using hk) (by rw [ho]; decide)).1
    rw [ho] at this; exact absurd this (by decide)
  have hno : (w vote).owner ≠ progId := by rw [ho]; decide
  have hne : Key.validatorPda vote ck ≠ vote := by
    intro e; rw [← e] at hof; cases hof
  let w1 := w.set vote { w vote with data := .vote party }
  have E : ExtStep w w1 := by
    refine extStep_of ⟨fun k => ?_, ?_⟩ (fun k => ?_) fun k hk => ?_
    · by_cases e : k = vote
      · subst e; exact ⟨by simpa [w1, World.set] using (I.wf.1 k).1, by simp [w1, Data.WF]⟩
      · simpa [w1, World.set, e] using I.wf.1 k
    · have := I.wf.2
      by_cases e : systemId = vote
      · rw [e] at this; exact absurd ho this
      · simpa [w1, World.set, e] using this
    · by_cases e : k = vote <;> simp [w1, World.set, e]
    · have e : k ≠ vote := by rintro rfl; rcases hk with hk | hk; exacts [hno hk, by rw [hof] at hk; cases hk]
      simp [w1, World.set, e]
  have N1 : NeverSigned env party hash w1 := by
    refine .step N (.ext E) fun ⟨b, hb⟩ => ?_
    by_cases e : Key.dunaPda party hash = vote
    · simp [w1, e] at hb
    · exact N.unsigned ⟨b, by simpa [w1, World.set, e] using hb⟩
  have R1 := N1.reachable
  have hv1 : validatorAt w1 (.validatorPda vote ck) = some v := by
    rw [validatorAt_congr (ext_st I E _)]; exact hv
  have hc1 : (configAt w1 ck).isSome = true := by
    cases hk : configAt w1 ck with
    | some c => rfl
    | none => have := (reachable_inv R1).no_stake hk (s := .validatorPda vote ck) (Or.inl ⟨_, rfl⟩)
              rw [stakeAt_of_validator hv1] at this; cases this
  have hd1 : (w1 vote).owner = voteId ∧ (w1 vote).data = .vote party := by simp [w1, ho]
  obtain ⟨w2, h⟩ := (C102_sync_authority (o := o) R1 hi hl hw).2 ⟨hc1, rfl, by rw [hv1]; rfl, hd1.1, party, hd1.2⟩
  refine ⟨w1, w2, E, h, .step N1 (.exec O h) fun ⟨b, hb⟩ => N1.unsigned ⟨b, ?_⟩, ?_⟩
  · obtain ⟨a, r, hl', hr⟩ := ran_validatorSyncAuthority h hi
    obtain ⟨x, wd, _, _, hk, hx, _, _, _, rfl⟩ := validatorSyncAuthority_ok hr
    rwa [World.setD_data, if_neg (by rw [hk]; simp)] at hb
  · obtain ⟨_, _, wd, _, hw2, ha⟩ := C75_sync_keeps_rewards R1 h hi (s := .validatorPda vote ck) (vote := vote)
      (by simp [Ix.acct, hl]) (by simp [Ix.acct, hl])
    rw [hd1.2] at hw2; cases hw2
    exact ha

/-! ## The cases are met

In the example 171 has never signed; the vote account of the first validator is handed to it, while tokens are staked on
the account. -/

theorem unsigned_of_empty {party : Key} {hash : List UInt8} (h : (w (.dunaPda party hash)).data = .bytes []) :
    ¬ SignedDoc w party hash := by
  rintro ⟨b, hb⟩; rw [h] at hb; simp at hb

theorem neverSigned9 : NeverSigned Witness.env (.raw 171) Witness.hash w9 := by
  have e : ∀ x ∈ [w0, w1, w2, w3, w4, w5, w6, w7, w8, w9], (x (.dunaPda (.raw 171) Witness.hash)).data = .bytes [] := by
    decide +kernel
  have u : ∀ x ∈ [w0, w1, w2, w3, w4, w5, w6, w7, w8, w9], ¬ SignedDoc x (.raw 171) Witness.hash :=
    fun x hx => unsigned_of_empty (e x hx)
  have n0 : NeverSigned Witness.env (.raw 171) Witness.hash w0 := .genesis genesis (u _ (by simp))
  have n1 := NeverSigned.step n0 (.exec o1_ok (ok_after ok0)) (u w1 (by simp))
  have n2 := NeverSigned.step n1 (.exec o1_ok (ok_after ok1)) (u w2 (by simp))
  have n3 := NeverSigned.step n2 (.exec o1_ok (ok_after ok2)) (u w3 (by simp))
  have n4 := NeverSigned.step n3 (.exec o1_ok (ok_after ok3)) (u w4 (by simp))
  have n5 := NeverSigned.step n4 (.exec o1_ok (ok_after ok4)) (u w5 (by simp))
  have n6 := NeverSigned.step n5 (.exec o1_ok (ok_after ok5)) (u w6 (by simp))
  have n7 := NeverSigned.step n6 (.exec o1_ok (ok_after ok6)) (u w7 (by simp))
  have n8 := NeverSigned.step n7 (.ext (credit_ext (reachable_inv r7).wf (of_decide_eq_true lt7))) (u w8 (by simp))
  exact NeverSigned.step n8 (.exec o1_ok (ok_after ok8)) (u w9 (by simp))

/-- Account 171 ends up as the authority of the first validator's stake account, on which tokens are staked, without signing. -/
example : ∃ x, NeverSigned Witness.env (.raw 171) Witness.hash x ∧ authorityOf x val1 = some (.raw 171) ∧
    (configAt x cfg).map (·.dunaHash) = some Witness.hash ∧ 0 < stakedOf w9 val1 := by
  obtain ⟨x1, x2, E, h, N, ha⟩ := C110_sync_needs_no_signature (ix := ixSync) neverSigned9 o1_ok (vote := vote1) (ck := cfg)
    (by decide +kernel) (by decide +kernel) (by decide +kernel) (rest := []) rfl (by decide +kernel)
  refine ⟨x2, N, ha, ?_, by decide +kernel⟩
  obtain ⟨c, hc, _, _, e⟩ := C11_fixed_at_creation r9 (.tail (.tail .refl (.ext E)) (.exec o1_ok h))
    (by decide +kernel : configAt w9 cfg = some (cfgOf w9 cfg))
  rw [hc, Option.map_some, e]; decide +kernel

/-- The staker, who owns the first SOL staker stake account, did sign. -/
example : ∃ w1, Reachable Witness.env w1 ∧ Steps Witness.env w1 w9 ∧ stakeAt w1 sol1 = none ∧ SignedDoc w1 staker Witness.hash := by
  have hc : configAt w9 cfg = some (cfgOf w9 cfg) := by decide +kernel
  have hs : solStakerAt w9 sol1 = some (solOf w9 sol1) := by decide +kernel
  have := C110_sol_staker_signed r9 hs (belongs_sol _ _) hc
  rwa [(by decide +kernel : (solOf w9 sol1).del.authority = staker), (by decide +kernel : (cfgOf w9 cfg).dunaHash = Witness.hash)] at this

end Verif.Props
