import Verif.Lemmas.LiveSimple
/-!
# Success of moves
-/

namespace Verif

variable {env : Env} {o : Oracle} {w w' : World} {ix : Ix}

/-- Settling one account leaves the claim of another one as it was. -/
theorem Payable.after {ck hk auth sk k : Key} {keeper : Option Key} {c : Config} {d e : Delegation} {h : HolderRewards}
    {rs rh : Nat} (H : Harvested env w w' ck hk auth (env.vaultAuth ck) sk keeper c d h rs rh) (I : Inv env w) (I' : Inv env w')
    (hkeep : keeper ≠ some ck) (hau : auth ≠ ck) (P : Payable env w ck k c e) (hne : k ≠ sk)
    (funds : rs + rh + accrued env w ck k + env.rentMin configLen ≤ (w ck).lamports)
    (room : (w' e.authority).lamports + accrued env w ck k < 2 ^ 64) :
    Payable env w' ck k (c.settled (w ck).lamports (rs + rh)) e ∧ accrued env w' ck k = accrued env w ck k := by
  obtain ⟨hcO, hc, hsO, hd, hkc⟩ := P.facts
  have S := H.settled hkeep (fun e => absurd e hau)
  have hcO' : (w' ck).owner = progId := by rw [H.owner]; exact hcO
  have hst : stakeAt w' k = some e := by rw [stakeAt_congr (H.stakeAt_other hkc hne)]; exact P.stake
  have hacc := H.holderAcc' ck
  have e1 : accrued env w' ck k = accrued env w ck k := by
    rw [accrued_settled S I'.wf hcO', dueAt_some hst P.belongs, hacc, accrued_eq P.config P.stake P.belongs]
  have hcfg := H.configAt' hcO
  have e2 : currentAcc (c.settled (w ck).lamports (rs + rh)) (w' ck).lamports = currentAcc c (w ck).lamports :=
    (S.accNow I'.wf (configAt_eq.1 hcfg).2).1
  refine ⟨⟨hcfg, hst, P.belongs, ?_, ?_, ?_, ?_, P.payee, ?_⟩, e1⟩
  · obtain ⟨x, hx⟩ := Option.isSome_iff_exists.1 P.record
    have hx' := holderAt_data.1 hx
    have h1 : vaultRecord env ck ≠ ck := by intro e; rw [e, hc] at hx'; cases hx'
    have h2 : vaultRecord env ck ≠ sk := by
      intro e; have := H.del; rw [← e, hx'] at this; simp [Data.del?] at this
    rw [holderAt_data.2 ((H.data' _ h1 h2).trans hx')]; rfl
  · rw [e2]; exact P.fitsStake
  · rw [hacc]; exact P.fitsHolder
  · rw [e1, H.lamports' ck, if_neg (Ne.symm hau), if_pos rfl]; omega
  · rw [e1]; exact room

theorem live_move (I : Inv env w) {n : Nat} (hi : ix.decoded = some (.solStakerMoveTokens n)) {ck sk tk : Key}
    {c : Config} {s t : SolStakerStake} {rest : List Key}
    (hl : ix.ctx.accts = ck :: vaultRecord env ck :: s.del.authority :: sk :: tk :: rest)
    (hsig : ix.ctx.signer s.del.authority = true)
    (hs : solStakerAt w sk = some s) (ht : solStakerAt w tk = some t) (hne : tk ≠ sk)
    (hauth : t.del.authority = s.del.authority)
    (Ps : Payable env w ck sk c s.del) (Pt : Payable env w ck tk c t.del)
    (funds : accrued env w ck sk + accrued env w ck tk + env.rentMin configLen ≤ (w ck).lamports)
    (room : (w s.del.authority).lamports + accrued env w ck sk + accrued env w ck tk < 2 ^ 64)
    (hn : n ≤ s.del.staked) (hlt : t.del.staked + n < 2 ^ 64)
    (heff : c.effTotal - s.del.effective + min (s.del.staked - n) (cap s.lamports) - t.del.effective +
      min (t.del.staked + n) (cap t.lamports) < 2 ^ 64)
    (hcs : cap s.lamports < 2 ^ 64) (hct : cap t.lamports < 2 ^ 64)
    (hw : ix.Writes [ck, sk, tk, s.del.authority]) :
    ∃ w', exec env o w ix = .ok w' := by
  obtain ⟨hcO, hc, hsO, hd, hskc⟩ := Ps.facts
  obtain ⟨_, _, htO, htd, htkc⟩ := Pt.facts
  have hsd := (solStakerAt_eq.1 hs).2
  have htd' := (solStakerAt_eq.1 ht).2
  have ks := I.solStaker_at hs Ps.belongs
  have kt := I.solStaker_at ht Pt.belongs
  obtain ⟨w1, hw1⟩ := harvest_live I Ps
  obtain ⟨c0, d0, h, rs, rh, H⟩ := harvest_ok hw1
  have hcc : c0 = c := by have := H.config; rw [hc] at this; simpa using this.symm
  have hdd : d0 = s.del := by have := H.del; rw [hd] at this; simpa using this.symm
  subst hcc hdd
  have I1 := harvest_inv I H hcO hsO Ps.belongs
  have hpaid := H.paid hcO hsO Ps.belongs
  have hr1 : (w1 t.del.authority).lamports + accrued env w ck tk < 2 ^ 64 := by
    rw [hauth, H.lamports', if_pos rfl]
    simp only [authAfterKeeper, keeperReward, reduceCtorEq, if_false]
    omega
  obtain ⟨Pt1, he1⟩ := Pt.after H I I1 (by simp) Ps.payee hne (by omega) hr1
  obtain ⟨w2, hw2⟩ := harvest_live I1 Pt1
  rw [hauth] at hw2
  obtain ⟨c1, d1, h', rs', rh', H'⟩ := harvest_ok hw2
  have hcc : c1 = c0.settled (w ck).lamports (rs + rh) := by
    have := H'.config; rw [H.config_data] at this; simpa using this.symm
  have ht1 : (w1 tk).data = .solStaker t := by rw [H.data' _ htkc hne]; exact htd'
  have hdd : d1 = t.del := by have := H'.del; rw [ht1] at this; simpa [Data.del?] using this.symm
  subst hcc hdd
  have hs1 := (H.solStaker' hsd).2
  have hs2 := (H'.data' _ hskc (Ne.symm hne)).trans hs1
  have ht2 := (H'.solStaker' ht1).2
  set ds := s.del.marked (accNow c0 (w ck).lamports) h.lastAcc with eds
  set dt := t.del.marked (accNow (c0.settled (w ck).lamports (rs + rh)) (w1 ck).lamports) h'.lastAcc with edt
  have eS := I.stake sk hsO
  rw [hsd] at eS
  have eT := I.stake tk htO
  rw [htd'] at eT
  simp only [StakeOk] at eS eT
  have hle2 := TotalIs.le_two (I.config ck c0 Ps.config).total (Ne.symm hne)
  have x1 : effectiveIn w ck sk = s.del.effective := by
    unfold effectiveIn; rw [if_pos Ps.belongs, Ps.stake, Option.map_some, Option.getD_some]
  have x2 : effectiveIn w ck tk = t.del.effective := by
    unfold effectiveIn; rw [if_pos Pt.belongs, Pt.stake, Option.map_some, Option.getD_some]
  rw [x1, x2] at hle2
  -- the two writes
  let w3 := w2.setD sk (.solStaker { s with del := { ds with staked := ds.staked - n } })
  let w4 := w3.setD tk (.solStaker { t with del :=
    { dt with staked := dt.staked + n, cooldown := max ds.cooldown dt.cooldown } })
  have e3 : w4 ck = w2 ck := by
    refine account_ext (by simp [w4, w3]) (by simp [w4, w3]) ?_
    simp only [w4, w3, World.setD_data, if_neg (Ne.symm htkc), if_neg (Ne.symm hskc)]
  have ow4 : ∀ k, (w4 k).owner = (w k).owner := fun k => by
    simp only [w4, w3, World.setD_owner, H'.owner, H.owner]
  have d4s : (w4 sk).data = .solStaker { s with del := { ds with staked := ds.staked - n } } := by
    simp only [w4, w3, World.setD_data, if_neg (Ne.symm hne), if_pos]
  have d4t : (w4 tk).data = .solStaker { t with del :=
      { dt with staked := dt.staked + n, cooldown := max ds.cooldown dt.cooldown } } := by
    simp only [w4, World.setD_data, if_pos]
  have hcw : c0.effTotal < U64 := by have := (I.wf.1 ck).2; rw [hc] at this; exact this.2.1
  have m1 : min (s.del.staked - n) (cap s.lamports) ≤ s.del.effective := by omega
  have m2 : min (t.del.staked + n) (cap t.lamports) ≤ t.del.effective + n := by omega
  obtain ⟨w5, hw5⟩ := syncEffective_live (w := w4) (ck := ck) (sk := sk) (l := s.lamports) (lmin := 0)
    (c := (c0.settled (w ck).lamports (rs + rh)).settled (w1 ck).lamports (rs' + rh'))
    (d := { ds with staked := ds.staked - n })
    (by rw [ow4]; exact hcO) (by rw [e3]; exact H'.config_data) (by rw [ow4]; exact hsO) (by rw [d4s]; rfl)
    (show s.del.effective ≤ c0.effTotal by omega) (by rw [Nat.max_zero]; exact hcs)
    (by rw [Nat.max_zero]
        show c0.effTotal - s.del.effective + min (s.del.staked - n) (cap s.lamports) < U64
        omega)
  obtain ⟨cx, dx, S⟩ := syncEffective_ok hw5
  have hcx : cx = (c0.settled (w ck).lamports (rs + rh)).settled (w1 ck).lamports (rs' + rh') := by
    have := S.config; rw [e3, H'.config_data] at this; simpa using this.symm
  have hdx : dx = { ds with staked := ds.staked - n } := by
    have := S.del; rw [d4s] at this; simpa [Data.del?] using this.symm
  obtain ⟨w6, hw6⟩ := syncEffective_live (w := w5) (ck := ck) (sk := tk) (l := t.lamports) (lmin := 0)
    (c := { cx with effTotal := cx.effTotal - dx.effective + min dx.staked (cap (max s.lamports 0)) })
    (d := { dt with staked := dt.staked + n, cooldown := max ds.cooldown dt.cooldown })
    (by rw [S.owner, ow4]; exact hcO) S.config' (by rw [S.owner, ow4]; exact htO)
    (by rw [S.data' _ htkc hne, d4t]; rfl)
    (by rw [hcx, hdx, Nat.max_zero]
        show t.del.effective ≤ c0.effTotal - s.del.effective + min (s.del.staked - n) (cap s.lamports)
        omega) (by rw [Nat.max_zero]; exact hct)
    (by rw [hcx, hdx, Nat.max_zero, Nat.max_zero]
        show c0.effTotal - s.del.effective + min (s.del.staked - n) (cap s.lamports) - t.del.effective +
          min (t.del.staked + n) (cap t.lamports) < U64
        exact heff)
  have hdisp : dispatch env o ix.ctx w (.solStakerMoveTokens n) = .ok w6 := by
    unfold dispatch
    rw [hl]
    simp only [solStakerMoveTokens, bind_ok, require_ok, exists_unit, unpackConfig_ok, unpackSolStaker_ok,
      readDel_ok, addU64_ok, subU64_ok, writeDel, setData_ok]
    refine ⟨hcO, _, hc, hsig, hsO, Ps.facts.2.2.2.2, s, hsd, ks, rfl, w1, hw1, by rw [H.owner]; exact htO, htkc, hne, t, ht1, kt, w2, hw2, ds,
      by rw [hs2]; rfl, dt, by rw [ht2]; rfl, hauth.symm, _, ⟨hn, rfl⟩, _, ⟨hlt, rfl⟩, w3,
      ⟨Or.inr (by rw [H'.owner, H.owner]; exact hsO), by rw [hs2]; rfl⟩, w4,
      ⟨Or.inr (by simp only [w3, World.setD_owner, H'.owner, H.owner]; exact htO), ?_⟩, w5, hw5, hw6⟩
    have : (w3 tk).data = (w2 tk).data := by simp only [w3, World.setD_data, if_neg hne]
    rw [this, ht2]; rfl
  obtain ⟨_, _, S'⟩ := syncEffective_ok hw6
  have lam : ∀ k, (w6 k).lamports = (w2 k).lamports := fun k => by
    rw [S'.lamports, S.lamports]; simp [w4, w3]
  refine ⟨w6, exec_of_dispatch hi hdisp (fun k _ => ?_) ?_⟩
  · by_cases h1 : k = ck
    · subst h1; exact Or.inl (hw _ (by simp))
    by_cases h2 : k = sk
    · subst h2; exact Or.inl (hw _ (by simp))
    by_cases h3 : k = tk
    · subst h3; exact Or.inl (hw _ (by simp))
    by_cases h4 : k = s.del.authority
    · subst h4; exact Or.inl (hw _ (by simp))
    right
    rw [← H.same h1 h2 h4, ← H'.same h1 h3 h4]
    refine account_ext (lam k) (by rw [S'.owner, S.owner, ow4, H'.owner, H.owner]) ?_
    rw [S'.data' k h1 h3, S.data' k h1 h2]
    simp only [w4, w3, World.setD_data, if_neg h2, if_neg h3]
  · have hck : ck ∈ ix.ctx.accts := by simp [hl]
    have hau : s.del.authority ∈ ix.ctx.accts := by simp [hl]
    rw [lamportSum_congr _ lam, H'.sum hck hau (by simp) (by simp), if_neg Ps.payee,
      H.sum hck hau (by simp) (by simp), if_neg Ps.payee]; rfl

end Verif
