import Verif.Lemmas.Invert
import Verif.Lemmas.Change
/-!
# Validators' lamport totals
-/

namespace Verif

variable {env : Env} {o : Oracle} {ctx : Ctx} {w w' w'' : World} {ix : Ix}

/-- The part of a stake account that has to do with lamports: a validator's total, or a staker's validator and lamports. -/
inductive Lam
  | val (total : Nat)
  | sol (vote : Key) (lamports : Nat)

/-- See `Lam`. -/
def Data.lam : Data → Option Lam
  | .validator v => some (.val v.total)
  | .solStaker s => some (.sol s.del.vote s.lamports)
  | _ => none

/-- The lamports view of the state. -/
def lv (w : World) (k : Key) : Option Lam := (st w k).bind Data.lam

/-- Function update. -/
def upd (f : Key → Option Lam) (k : Key) (x : Option Lam) : Key → Option Lam := fun k' => if k' = k then x else f k'

theorem upd_same {f : Key → Option Lam} {k : Key} {x : Option Lam} : upd f k x k = x := by simp [upd]
theorem upd_ne {f : Key → Option Lam} {k k' : Key} {x : Option Lam} (h : k' ≠ k) : upd f k x k' = f k' := by simp [upd, h]
theorem upd_id {f : Key → Option Lam} {k : Key} {x : Option Lam} (h : f k = x) : upd f k x = f := by
  funext k'; unfold upd; split_ifs with e
  · rw [e, h]
  · rfl

/-- What `s` contributes to the validator `v` of config `c`. -/
def on (f : Key → Option Lam) (c v s : Key) : Nat :=
  if belongs s c then
    match f s with
    | some (.sol v' l) => if v' = v then l else 0
    | _ => 0
  else 0

/-- Every validator's total is the sum of its stakers' lamports. -/
def TotalsOk (f : Key → Option Lam) : Prop := ∀ c v t, f (.validatorPda v c) = some (.val t) → TotalIs (on f c v) t

theorem lv_solStaker {k v : Key} {l : Nat} :
    lv w k = some (.sol v l) ↔ ∃ s, solStakerAt w k = some s ∧ s.del.vote = v ∧ s.lamports = l := by
  unfold lv
  constructor
  · intro h
    cases hs : st w k with
    | none => rw [hs] at h; simp at h
    | some D =>
      rw [hs] at h
      cases D <;> simp [Data.lam] at h
      exact ⟨_, st_solStaker.1 hs, h⟩
  · rintro ⟨s, hs, rfl, rfl⟩; rw [st_solStaker.2 hs]; rfl

theorem lv_validator {k : Key} {t : Nat} : lv w k = some (.val t) ↔ ∃ v, validatorAt w k = some v ∧ v.total = t := by
  unfold lv
  constructor
  · intro h
    cases hs : st w k with
    | none => rw [hs] at h; simp at h
    | some D =>
      rw [hs] at h
      cases D <;> simp [Data.lam] at h
      exact ⟨_, st_validator.1 hs, h⟩
  · rintro ⟨s, hs, rfl⟩; rw [st_validator.2 hs]; rfl

theorem on_lv (c v s : Key) : on (lv w) c v s = lamportsOn w c v s := by
  unfold on lamportsOn
  split_ifs
  · cases hs : solStakerAt w s with
    | some x => rw [lv_solStaker.2 ⟨x, hs, rfl, rfl⟩]
    | none =>
      cases hl : lv w s with
      | none => rfl
      | some y =>
        cases y with
        | val t => rfl
        | sol v' l => obtain ⟨x, hx, _⟩ := lv_solStaker.1 hl; rw [hs] at hx; simp at hx
  · rfl

/-- One staker of config `c0`, and validators of `c0`, change. -/
theorem TotalsOk.change {f g : Key → Option Lam} (T : TotalsOk f) {c0 s : Key} (hb : belongs s c0)
    (hs : ∀ k, k ≠ s → (∀ v, k ≠ .validatorPda v c0) → g k = f k)
    (hv : ∀ v t', g (.validatorPda v c0) = some (.val t') →
      ∃ t, f (.validatorPda v c0) = some (.val t) ∧ t' + on f c0 v s = t + on g c0 v s)
    (hk : ∀ v, ∀ x l, g (.validatorPda v c0) ≠ some (.sol x l) ∧ f (.validatorPda v c0) ≠ some (.sol x l)) :
    TotalsOk g := by
  have zero : ∀ {h : Key → Option Lam} {v : Key} {c x : Key}, (∀ y l, h (.validatorPda v c0) ≠ some (.sol y l)) →
      on h c x (.validatorPda v c0) = 0 := by
    intro h v c x hh
    unfold on
    split_ifs
    · cases e : h (.validatorPda v c0) with
      | none => rfl
      | some y => cases y with
        | val t => rfl
        | sol a b => exact absurd e (hh a b)
    · rfl
  have same : ∀ {c v k : Key}, k ≠ s → on g c v k = on f c v k := by
    intro c v k hks
    by_cases hval : ∃ v', k = .validatorPda v' c0
    · obtain ⟨v', rfl⟩ := hval
      rw [zero fun y l => (hk v' y l).1, zero fun y l => (hk v' y l).2]
    · unfold on; rw [hs k hks (fun v e => hval ⟨v, e⟩)]
  intro c v t' h'
  by_cases hc : c = c0
  · subst hc
    obtain ⟨t, ht, e⟩ := hv v t' h'
    exact (T c v t ht).update (a := s) (fun k hk => same hk) e
  · by_cases hvs : .validatorPda v c = s
    · subst hvs; simp [belongs, hc] at hb
    · have hf : f (.validatorPda v c) = some (.val t') := by
        rw [← h']; exact (hs _ hvs (by simp [hc])).symm
      refine (T c v t' hf).congr fun k => ?_
      by_cases hks : k = s
      · subst hks
        have : ¬ belongs k c := fun hb' => hc (belongs_unique hb' hb)
        simp [on, this]
      · exact same hks

/-- A new validator to which no staker points. -/
theorem TotalsOk.newValidator {f : Key → Option Lam} (T : TotalsOk f) {v0 c0 : Key} (hn : f (.validatorPda v0 c0) = none)
    (h0 : ∀ k, on f c0 v0 k = 0) : TotalsOk (upd f (.validatorPda v0 c0) (some (.val 0))) := by
  have same : ∀ c v k, on (upd f (.validatorPda v0 c0) (some (.val 0))) c v k = on f c v k := by
    intro c v k
    unfold on
    by_cases hk : k = .validatorPda v0 c0
    · subst hk; rw [upd_same, hn]
    · rw [upd_ne hk]
  intro c v t h
  by_cases hk : Key.validatorPda v c = .validatorPda v0 c0
  · rw [hk, upd_same] at h
    simp only [Key.validatorPda.injEq] at hk
    obtain ⟨rfl, rfl⟩ := hk
    simp only [Option.some.injEq, Lam.val.injEq] at h
    subst h
    exact TotalIs.zero fun k => by rw [same]; exact h0 k
  · rw [upd_ne hk] at h
    exact (T c v t h).congr fun k => same c v k

/-! ## What steps do to the lamports view -/

theorem lam_setDel {D : Data} {d x : Delegation} (h : D.del? = some d) (e : x.vote = d.vote) : (D.setDel x).lam = D.lam := by
  cases D <;> simp_all [Data.del?, Data.setDel, Data.lam]

theorem Harvested.lv_eq {ck hk auth va sk : Key} {keeper : Option Key} {c : Config} {d : Delegation}
    {h : HolderRewards} {rs rh : Nat} (H : Harvested env w w' ck hk auth va sk keeper c d h rs rh)
    (hcO : (w ck).owner = progId) (hsO : (w sk).owner = progId) : lv w' = lv w := by
  funext k
  unfold lv
  rw [H.st_eq hcO hsO]
  split_ifs with h1 h2
  · subst h1; rw [st_of_owned hcO H.config (Or.inl ⟨_, rfl⟩)]; rfl
  · subst h2; rw [st_of_owned hsO rfl (Or.inr ⟨_, H.del⟩)]; exact lam_setDel H.del rfl
  · rfl

theorem Adjusted.lv_upd {ck sk : Key} {D' : Data} {c : Config} {d d' : Delegation}
    (A : Adjusted w w' ck sk D' c d d') (hcO : (w ck).owner = progId) (hsO : (w sk).owner = progId) (hne : sk ≠ ck) :
    lv w' = upd (lv w) sk D'.lam := by
  funext k
  unfold lv upd
  rw [A.st_eq hcO hsO]
  split_ifs with h1 h2 h2
  · exact absurd (h2.symm.trans h1) hne
  · subst h1; show _ = (st w k).bind Data.lam; rw [st_of_owned hcO A.config (Or.inl ⟨_, rfl⟩)]; rfl
  · rfl
  · rfl

theorem Adjusted.lv_eq {ck sk : Key} {D' : Data} {c : Config} {d d' : Delegation}
    (A : Adjusted w w' ck sk D' c d d') (hcO : (w ck).owner = progId) (hsO : (w sk).owner = progId) (hne : sk ≠ ck)
    (e : D'.lam = (w sk).data.lam) : lv w' = lv w := by
  rw [A.lv_upd hcO hsO hne]
  refine upd_id ?_
  unfold lv; rw [st_of_owned hsO rfl (Or.inr ⟨_, A.del⟩), e]; rfl

theorem ext_lv (I : Inv env w) (h : ExtStep w w') : lv w' = lv w := by
  funext k; unfold lv; rw [ext_st I h]

theorem Retotaled.lv_upd {ck hk auth sk : Key} {v : ValidatorStake} {total : Nat} {c : Config}
    {hr : HolderRewards} {rs rh : Nat} {w1 : World} {c1 : Config} {d1 d2 : Delegation}
    (R : Retotaled env w w' ck hk auth sk v total c hr rs rh w1 c1 d1 d2) (hcO : (w ck).owner = progId) :
    lv w' = upd (lv w) sk (some (.val total)) ∧ lv w sk = some (.val v.total) := by
  refine ⟨?_, lv_validator.2 ⟨v, validatorAt_eq.2 ⟨R.owner, R.data⟩, rfl⟩⟩
  rw [R.adj.lv_upd (by rw [R.harv.owner]; exact hcO) (by rw [R.harv.owner]; exact R.owner) R.harv.ne,
    R.harv.lv_eq hcO R.owner]; rfl

/-- Leaving a validator, in the lamports view: `f` before, `f'` after; the staker records `vote` and `l`. -/
inductive LeftLv (f f' : Key → Option Lam) (ck vote : Key) (l : Nat) : Prop
  | stay : vote = .default → l = 0 → f' = f → LeftLv f f' ck vote l
  | leave {t : Nat} : f (.validatorPda vote ck) = some (.val t) → l ≤ t →
      f' = upd f (.validatorPda vote ck) (some (.val (t - l))) → LeftLv f f' ck vote l

/-- Joining a validator, in the lamports view; the staker will record `vote` and `l`. -/
inductive JoinedLv (f f' : Key → Option Lam) (ck vote : Key) (l : Nat) : Prop
  | undelegated : vote = .default → f' = f → JoinedLv f f' ck vote l
  | join {t : Nat} : f (.validatorPda vote ck) = some (.val t) →
      f' = upd f (.validatorPda vote ck) (some (.val (t + l))) → JoinedLv f f' ck vote l

theorem Left.lv_eq {a : HarvestSolStakerRewardsAccts} {s : SolStakerStake} (L : Left env w w' a s)
    (hcO : (w a.config).owner = progId) : LeftLv (lv w) (lv w') a.config s.del.vote s.lamports := by
  cases L with
  | stay h1 h2 h => exact .stay h1 h2 (by rw [h])
  | leave _ hk hle R =>
    obtain ⟨e1, e2⟩ := R.lv_upd hcO
    rw [hk] at e1 e2
    exact .leave e2 hle e1

theorem Joined.lv_eq {a : HarvestSolStakerRewardsAccts} {dv vote : Key} {ds l : Nat}
    (J : Joined env w w' a dv ds vote l) (hcO : (w a.config).owner = progId) :
    JoinedLv (lv w) (lv w') a.config vote l := by
  cases J with
  | undelegated h1 h => exact .undelegated h1 (by rw [h])
  | absent h1 _ _ h => exact .undelegated rfl (by rw [h])
  | join h1 hk R =>
    obtain ⟨e1, e2⟩ := R.lv_upd hcO
    rw [hk] at e1 e2
    exact .join e2 e1

/-- What a successful instruction does to the lamports view. -/
inductive LvChange (o : Oracle) (w w' : World) (ix : Ix) : Prop
  | same : lv w' = lv w → LvChange o w w' ix
  | newValidator (vote ck : Key) : lv w (.validatorPda vote ck) = none →
      lv w' = upd (lv w) (.validatorPda vote ck) (some (.val 0)) → LvChange o w w' ix
  | newSol (native ck vote : Key) (l t : Nat) : lv w (.solStakerPda native ck) = none →
      lv w (.validatorPda vote ck) = some (.val t) →
      lv w' = upd (upd (lv w) (.solStakerPda native ck) (some (.sol vote l))) (.validatorPda vote ck)
        (some (.val (t + l))) → LvChange o w w' ix
  | sync (native ck vote vote' : Key) (l l' : Nat) (f1 f2 : Key → Option Lam) : ix.decoded = some .harvestSolStakerRewards →
      lv w (.solStakerPda native ck) = some (.sol vote l) →
      LeftLv (lv w) f1 ck vote l → JoinedLv f1 f2 ck vote' l' →
      (vote' = .default → l' = 0 ∨ ∃ v, o.view native = .ok v ∧ v.delegatedVote = .default ∧ v.effective = l') →
      lv w' = upd f2 (.solStakerPda native ck) (some (.sol vote' l')) → LvChange o w w' ix

theorem lv_stUpd {k : Key} {D : Data} (h : st w' = stUpd (st w) k D) : lv w' = upd (lv w) k D.lam := by
  funext k'; unfold lv upd; rw [h]; unfold stUpd; split_ifs <;> rfl

theorem Effect.lv_eq (E : Effect env o ix w w')
    (hi : (∃ s c t b y h, ix.decoded = some (.initializeConfig s c t b y h)) ∨
      ix.decoded = some .initializeValidatorStake ∨ ix.decoded = some .initializeSolStakerStake ∨
      (∃ t, ix.decoded = some (.setAuthority t)) ∨ (∃ f, ix.decoded = some (.updateConfig f)) ∨
      ix.decoded = some .validatorSyncAuthority) : LvChange o w w' ix := by
  cases E with
  | initializeConfig ck c _ _ hn _ he =>
    exact .same (by rw [lv_stUpd he]; exact upd_id (by simp [lv, hn, Data.lam]))
  | initializeValidatorStake ck vote wd c _ _ _ _ _ hn he =>
    exact .newValidator vote ck (by simp [lv, hn]) (by rw [lv_stUpd he]; rfl)
  | initializeSolStakerStake ck native c v vs _ _ _ _ hv hn he =>
    refine .newSol native ck v.delegatedVote v.effective vs.total (by simp [lv, hn]) (lv_validator.2 ⟨_, hv, rfl⟩) ?_
    funext k
    unfold lv upd
    rw [he]; unfold stUpd
    split_ifs <;> rfl
  | setAuthority ck _ c c' t _ _ hc _ he =>
    exact .same (by rw [lv_stUpd he]; exact upd_id (by simp [lv, st_config.2 hc, Data.lam]))
  | updateConfig ck c f _ _ hc _ _ he =>
    exact .same (by rw [lv_stUpd he]; exact upd_id (by simp [lv, st_config.2 hc, Data.lam]))
  | validatorSyncAuthority ck vote wd v _ _ _ hv _ _ he =>
    exact .same (by rw [lv_stUpd he]; exact upd_id (by simp [lv, st_validator.2 hv, Data.lam]))
  | settle _ h1 _ _ =>
    rcases h1 with h1 | h1 | h1 | ⟨_, h1⟩ <;> rw [h1] at hi <;> simp at hi
  | stake _ _ _ _ _ h1 _ _ _ _ _ => rcases h1 with h1 | h1 <;> rw [h1] at hi <;> simp at hi
  | slash _ _ _ _ _ h1 _ _ _ => rcases h1 with h1 | h1 <;> rw [h1] at hi <;> simp at hi
  | unstake _ _ _ _ _ _ h1 _ _ _ => rw [h1] at hi; simp at hi
  | move _ _ _ _ _ _ _ _ h1 _ _ _ _ => rw [h1] at hi; simp at hi

theorem exec_lv (I : Inv env w) (O : o.Ok) (h : exec env o w ix = .ok w') : LvChange o w w' ix := by
  cases exec_ran h with
  | initializeConfig a s c hh t b y rest hi hl hr => exact (exec_effect I O h).lv_eq (Or.inl ⟨_, _, _, _, _, _, hi⟩)
  | initializeValidatorStake a rest hi hl hr => exact (exec_effect I O h).lv_eq (Or.inr (Or.inl hi))
  | initializeSolStakerStake a rest hi hl hr => exact (exec_effect I O h).lv_eq (Or.inr (Or.inr (Or.inl hi)))
  | setAuthority a t rest hi hl hr => exact (exec_effect I O h).lv_eq (Or.inr (Or.inr (Or.inr (Or.inl ⟨_, hi⟩))))
  | updateConfig a f rest hi hl hr => exact (exec_effect I O h).lv_eq (Or.inr (Or.inr (Or.inr (Or.inr (Or.inl ⟨_, hi⟩)))))
  | validatorSyncAuthority a rest hi hl hr => exact (exec_effect I O h).lv_eq (Or.inr (Or.inr (Or.inr (Or.inr (Or.inr hi)))))
  | validatorStakeTokens a n rest hi hl hr =>
    obtain ⟨c, s, hr, rs, rh, w1, w2, w3, c1, ts, td, hs, _, S⟩ := validatorStakeTokens_ok hr
    obtain ⟨I1, I2, I3, e3, e4, I4⟩ := validatorStakeTokens_inv I O hs S
    refine .same ?_
    rw [ext_lv I3 e4, ext_lv I2 e3, S.adj.lv_eq (by rw [S.harv.owner]; exact S.cO) (by rw [S.harv.owner]; exact S.sO)
      S.harv.ne (by rw [(S.harv.validator' hs).2]; rfl), S.harv.lv_eq S.cO S.sO]
  | solStakerStakeTokens a n rest hi hl hr =>
    obtain ⟨c, s, hr, rs, rh, w1, w2, w3, c1, ts, td, hs, _, S⟩ := solStakerStakeTokens_ok hr
    obtain ⟨I1, I2, I3, e3, e4, I4⟩ := solStakerStakeTokens_inv I O hs S
    refine .same ?_
    rw [ext_lv I3 e4, ext_lv I2 e3, S.adj.lv_eq (by rw [S.harv.owner]; exact S.cO) (by rw [S.harv.owner]; exact S.sO)
      S.harv.ne (by rw [(S.harv.solStaker' hs).2]; rfl), S.harv.lv_eq S.cO S.sO]
  | unstakeTokens a n rest hi hl hr =>
    obtain ⟨c, d, hr, rs, rh, w1, w2, w3, c1, D', call, ts, td, lam, S, K⟩ := unstakeTokens_ok hr
    obtain ⟨I1, I2, I3, e3, e4, I4⟩ := unstakeTokens_inv I O S K
    refine .same ?_
    rw [ext_lv I3 e4, ext_lv I2 e3, S.adj.lv_eq (by rw [S.harv.owner]; exact S.cO) (by rw [S.harv.owner]; exact S.sO)
      S.harv.ne ?_, S.harv.lv_eq S.cO S.sO]
    rcases K with ⟨s, hs, hk, hd, _, hD⟩ | ⟨s, hs, hk, hd, _, hD⟩
    · rw [(S.harv.validator' hs).2, hD]; rfl
    · rw [(S.harv.solStaker' hs).2, hD, hd]; rfl
  | slashValidatorStake a n rest hi hl hr =>
    obtain ⟨c, s, hr, rs, rh, w1, w2, c1, hs, _, S⟩ := slashValidatorStake_ok hr
    obtain ⟨I1, e2, I2, I4⟩ := slashValidatorStake_inv I hs S
    obtain ⟨_, ho, hsame⟩ := S.burn_ext I1
    refine .same ?_
    rw [S.adj.lv_eq (by rw [ho, S.harv.owner]; exact S.cO) (by rw [ho, S.harv.owner]; exact S.sO) S.harv.ne
      (by rw [hsame, (S.harv.validator' hs).2]; rfl), ext_lv I1 e2, S.harv.lv_eq S.cO S.sO]
  | slashSolStakerStake a n rest hi hl hr =>
    obtain ⟨c, s, hr, rs, rh, w1, w2, c1, hs, _, S⟩ := slashSolStakerStake_ok hr
    obtain ⟨I1, e2, I2, I4⟩ := slashSolStakerStake_inv I hs S
    obtain ⟨_, ho, hsame⟩ := S.burn_ext I1
    refine .same ?_
    rw [S.adj.lv_eq (by rw [ho, S.harv.owner]; exact S.cO) (by rw [ho, S.harv.owner]; exact S.sO) S.harv.ne
      (by rw [hsame, (S.harv.solStaker' hs).2]; rfl), ext_lv I1 e2, S.harv.lv_eq S.cO S.sO]
  | harvestHolderRewards a rest hi hl hr =>
    refine .same ?_
    obtain ⟨c, hc, hst⟩ := harvestHolderRewards_st I O hr
    funext k
    unfold lv
    rw [hst]
    split_ifs with hk
    · subst hk; simp [st_config.2 hc, Data.lam]
    · rfl
  | harvestValidatorRewards a rest hi hl hr =>
    obtain ⟨c, s, hr, rs, rh, hcO, hsO, _, _, H⟩ := harvestValidatorRewards_ok hr
    exact .same (H.lv_eq hcO hsO)
  | harvestSolStakerRewards a keeper rest hi hl hk hr =>
    obtain ⟨s, v, c, hr, rs, rh, w1, B, H⟩ := harvestSolStakerRewards_ok I.wf hr
    cases H with
    | noSync _ _ H hw => subst hw; exact .same (H.lv_eq B.cO B.sO)
    | sync _ _ H L J hd1 hd2 A =>
      have hb : lv w a.solStakerStake = some (.sol s.del.vote s.lamports) :=
        lv_solStaker.2 ⟨s, solStakerAt_eq.2 ⟨B.sO, B.data⟩, rfl, rfl⟩
      have e1 := H.lv_eq B.cO B.sO
      have c1 : (w1 a.config).owner = progId := by rw [H.owner]; exact B.cO
      have L' := L.lv_eq c1
      rw [e1] at L'
      have J' := J.lv_eq (by rw [L.owner]; exact c1)
      have A' := A.lv_upd (by rw [J.owner, L.owner]; exact c1) (by rw [J.owner, L.owner, H.owner]; exact B.sO) H.ne
      rw [B.sk] at A' hb
      refine .sync s.solStake a.config s.del.vote _ s.lamports _ _ _ hi hb L' J' ?_ ?_
      · intro e
        have hv := B.view
        rw [B.native] at hv
        cases J with
        | undelegated h1 _ => exact Or.inr ⟨v, hv, h1, rfl⟩
        | absent _ _ _ _ => exact Or.inl rfl
        | join h1 _ _ => exact absurd e h1
      · rw [A']
        simp [Data.lam, hd2]
  | solStakerMoveTokens a n rest hi hl hr =>
    obtain ⟨c, c', s, t, hr, rs, rh, rs', rh', w1, w2, wx, cs, ct, ds, dt, ds', dt', M⟩ := solStakerMoveTokens_ok hr
    refine .same ?_
    have ho1 := M.harvS.owner
    have ho2 := M.harvT.owner
    have hox := M.adjS.owner
    have ht1 : (w1 a.destinationSolStakerStake).data = .solStaker t := by
      rw [M.harvS.data' _ M.harvT.ne M.ne]; exact M.dst
    have hs2 := (M.harvS.solStaker' M.src).2
    rw [← M.harvT.data' _ M.harvS.ne (Ne.symm M.ne), ← M.ds_eq] at hs2
    have ht2 := (M.harvT.solStaker' ht1).2
    rw [← M.dt_eq, ← M.adjS.data' _ M.harvT.ne M.ne] at ht2
    rw [M.adjT.lv_eq (by rw [hox, ho2, ho1]; exact M.cO) (by rw [hox, ho2, ho1]; exact M.tO) M.harvT.ne
        (by rw [ht2, M.dt'_eq]; rfl),
      M.adjS.lv_eq (by rw [ho2, ho1]; exact M.cO) (by rw [ho2, ho1]; exact M.sO) M.harvS.ne
        (by rw [hs2, M.ds'_eq]; rfl),
      M.harvT.lv_eq (by rw [ho1]; exact M.cO) (by rw [ho1]; exact M.tO), M.harvS.lv_eq M.cO M.sO]
  | validatorOverrideStakedLamports a n rest hi hl hr =>
    obtain ⟨c, s, hr, rs, rh, w1, c1, hcO, hsO, hs, hk, _, _, _, H, A⟩ := validatorOverrideStakedLamports_ok hr
    refine .same ?_
    rw [A.lv_eq (by rw [H.owner]; exact hcO) (by rw [H.owner]; exact hsO) H.ne
      (by rw [(H.validator' hs).2]; rfl), H.lv_eq hcO hsO]

/-! ## The invariant -/

theorem Inv.lv_validatorPda (I : Inv env w) {v c : Key} {x : Lam} (h : lv w (.validatorPda v c) = some x) :
    (∃ t, x = .val t) ∧ v ≠ .default := by
  cases x with
  | val t =>
    obtain ⟨y, hy, _⟩ := lv_validator.1 h
    obtain ⟨z, _, _, hz, _⟩ := I.shape _ (validatorAt_eq.1 hy).1
    exact ⟨⟨t, rfl⟩, hz⟩
  | sol a l =>
    obtain ⟨y, hy, _⟩ := lv_solStaker.1 h
    obtain ⟨z, hz, _⟩ := I.shape _ (solStakerAt_eq.1 hy).1
    rw [(solStakerAt_eq.1 hy).2] at hz; cases hz

/-- A staker's validator exists. -/
theorem Inv.lv_sol (I : Inv env w) {s c v : Key} {l : Nat} (hb : belongs s c) (h : lv w s = some (.sol v l)) :
    v = .default ∨ ∃ t, lv w (.validatorPda v c) = some (.val t) := by
  obtain ⟨y, hy, rfl, _⟩ := lv_solStaker.1 h
  obtain ⟨hO, hd⟩ := solStakerAt_eq.1 hy
  have S := I.shape _ hO
  rcases hb with ⟨v, rfl⟩ | ⟨n, rfl⟩
  · obtain ⟨z, hz, _⟩ := S
    rw [hd] at hz; cases hz
  · obtain ⟨z, hz, _, _, h1⟩ := S
    rw [hd] at hz; cases hz
    refine h1.imp id fun h => ?_
    obtain ⟨v, hv⟩ := Option.isSome_iff_exists.1 h
    exact ⟨_, lv_validator.2 ⟨v, hv, rfl⟩⟩

theorem totals_step (I : Inv env w) (I' : Inv env w') (T : TotalsOk (lv w)) (L : LvChange o w w' ix) : TotalsOk (lv w') := by
  have nosol : ∀ c v x l, lv w' (.validatorPda v c) ≠ some (.sol x l) ∧ lv w (.validatorPda v c) ≠ some (.sol x l) := by
    intro c v x l
    constructor
    · intro h; obtain ⟨⟨t, ht⟩, _⟩ := I'.lv_validatorPda h; cases ht
    · intro h; obtain ⟨⟨t, ht⟩, _⟩ := I.lv_validatorPda h; cases ht
  cases L with
  | same h => rw [h]; exact T
  | newValidator vote ck hn h =>
    rw [h]
    refine T.newValidator hn fun k => ?_
    have hv : vote ≠ .default := by
      have : lv w' (.validatorPda vote ck) = some (.val 0) := by rw [h, upd_same]
      exact (I'.lv_validatorPda this).2
    unfold on
    split_ifs with hb
    · cases hk : lv w k with
      | none => rfl
      | some y =>
        cases y with
        | val t => rfl
        | sol v' l =>
          have : v' ≠ vote := by
            rintro rfl
            rcases I.lv_sol hb hk with e | ⟨t, e⟩
            · exact hv e
            · rw [hn] at e; simp at e
          simp [this]
    · rfl
  | newSol native ck vote l t hn hv h =>
    have hb : belongs (.solStakerPda native ck) ck := by simp [belongs]
    refine T.change (c0 := ck) (s := .solStakerPda native ck) hb ?_ ?_ (nosol ck)
    · intro k h1 h2
      rw [h, upd_ne (h2 _), upd_ne h1]
    · intro v t' h'
      have o1 : on (lv w) ck v (.solStakerPda native ck) = 0 := by simp [on, hn]
      have o2 : on (lv w') ck v (.solStakerPda native ck) = if vote = v then l else 0 := by
        unfold on
        rw [if_pos hb, h, upd_ne (by simp), upd_same]
      rw [o1, o2]
      by_cases e : v = vote
      · subst e
        rw [h, upd_same] at h'
        simp at h'
        exact ⟨t, hv, by simp; omega⟩
      · rw [h, upd_ne (by simp [e]), upd_ne (by simp)] at h'
        exact ⟨t', h', by simp [Ne.symm e]⟩
  | sync native ck vote vote' l l' f1 f2 _ hs hl hj _ h =>
    have hb : belongs (.solStakerPda native ck) ck := by simp [belongs]
    refine T.change (c0 := ck) (s := .solStakerPda native ck) hb ?_ ?_ (nosol ck)
    · intro k h1 h2
      rw [h, upd_ne h1]
      have e2 : f2 k = f1 k := by
        cases hj with
        | undelegated _ e => rw [e]
        | join _ e => rw [e, upd_ne (h2 _)]
      have e1 : f1 k = lv w k := by
        cases hl with
        | stay _ _ e => rw [e]
        | leave _ _ e => rw [e, upd_ne (h2 _)]
      rw [e2, e1]
    · intro v t' h'
      have hv : v ≠ .default := (I'.lv_validatorPda h').2
      have o1 : on (lv w) ck v (.solStakerPda native ck) = if vote = v then l else 0 := by
        unfold on
        rw [if_pos hb, hs]
      have o2 : on (lv w') ck v (.solStakerPda native ck) = if vote' = v then l' else 0 := by
        unfold on
        rw [if_pos hb, h, upd_same]
      rw [o1, o2]
      rw [h, upd_ne (by simp)] at h'
      -- undo the join
      have hj' : ∃ t1, f1 (.validatorPda v ck) = some (.val t1) ∧ t' = t1 + if vote' = v then l' else 0 := by
        cases hj with
        | undelegated e1 e =>
          rw [e] at h'
          exact ⟨t', h', by rw [if_neg (by rw [e1]; exact Ne.symm hv)]; rfl⟩
        | @join t1 e1 e =>
          by_cases ev : v = vote'
          · subst ev
            rw [e, upd_same] at h'
            simp at h'
            exact ⟨t1, e1, by simp; omega⟩
          · rw [e, upd_ne (by simp [ev])] at h'
            exact ⟨t', h', by simp [Ne.symm ev]⟩
      obtain ⟨t1, h1, rfl⟩ := hj'
      have hl' : ∃ t, lv w (.validatorPda v ck) = some (.val t) ∧ t1 + (if vote = v then l else 0) = t := by
        cases hl with
        | stay e1 e2 e =>
          rw [e] at h1
          exact ⟨t1, h1, by rw [if_neg (by rw [e1]; exact Ne.symm hv)]; rfl⟩
        | @leave t e1 hle e =>
          by_cases ev : v = vote
          · subst ev
            rw [e, upd_same] at h1
            simp at h1
            exact ⟨t, e1, by simp; omega⟩
          · rw [e, upd_ne (by simp [ev])] at h1
            exact ⟨t1, h1, by simp [Ne.symm ev]⟩
      obtain ⟨t, ht, rfl⟩ := hl'
      exact ⟨_, ht, by omega⟩

theorem reachable_totals (R : Reachable env w) : TotalsOk (lv w) := by
  induction R with
  | @genesis w0 G =>
    intro c v t h
    obtain ⟨x, hx, _⟩ := lv_validator.1 h
    have h1 := G.owned _ (validatorAt_eq.1 hx).1
    rw [(validatorAt_eq.1 hx).2] at h1
    simp [Data.zeroed] at h1
  | ext R E ih => rw [ext_lv (reachable_inv R) E]; exact ih
  | exec R O h ih => exact totals_step (reachable_inv R) (reachable_inv (.exec R O h)) ih (exec_lv (reachable_inv R) O h)

/-! ## Stakers without a validator -/

/-- Every staker without a validator records no lamports. -/
def IdleOk (f : Key → Option Lam) : Prop := ∀ k l, f k = some (.sol .default l) → l = 0

theorem idle_step (I : Inv env w) (T : IdleOk (lv w)) (L : LvChange o w w' ix)
    (V : ∀ k v, o.view k = .ok v → v.delegatedVote = .default → v.effective = 0) : IdleOk (lv w') := by
  cases L with
  | same h => rw [h]; exact T
  | newValidator vote ck hn h =>
    intro k l hk
    rw [h] at hk; unfold upd at hk
    split_ifs at hk
    · simp at hk
    · exact T k l hk
  | newSol native ck vote l t hn hv h =>
    intro k l hk
    rw [h] at hk; unfold upd at hk
    split_ifs at hk
    · simp at hk
    · simp at hk; exact absurd hk.1 (I.lv_validatorPda hv).2
    · exact T k l hk
  | sync native ck vote vote' l l' f1 f2 _ hs hl hj hz h =>
    intro k x hk
    rw [h] at hk; unfold upd at hk
    split_ifs at hk
    · simp at hk
      obtain ⟨e, rfl⟩ := hk
      rcases hz e with h0 | ⟨v, h1, h2, h3⟩
      · exact h0
      · rw [← h3]; exact V _ v h1 h2
    · have e1 : f1 k = some (.sol .default x) := by
        cases hj with
        | undelegated _ e => rw [e] at hk; exact hk
        | join _ e =>
          rw [e] at hk; unfold upd at hk; split_ifs at hk
          · simp at hk
          · exact hk
      have e2 : lv w k = some (.sol .default x) := by
        cases hl with
        | stay _ _ e => rw [e] at e1; exact e1
        | leave _ _ e =>
          rw [e] at e1; unfold upd at e1; split_ifs at e1
          · simp at e1
          · exact e1
      exact T k x e2

end Verif
