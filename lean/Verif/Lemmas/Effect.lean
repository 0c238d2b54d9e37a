import Verif.SpecEffect
import Verif.Lemmas.Reward
import Verif.Lemmas.Exact
/-!
# Composing complete descriptions of what changes
-/

namespace Verif

variable {env : Env} {o : Oracle} {ctx : Ctx} {w w' w1 w2 : World} {ix : Ix} {g g1 g2 : Key → Int} {l l1 l2 : List (Key × Data)}

theorem Turns.mark (T : Turns w w' g l) {k : Key} {D : Data} (h : (w' k).data = D) : Turns w w' g ((k, D) :: l) := by
  refine ⟨T.owner, T.lamports, fun p hp => ?_, fun x hx => T.rest x fun p hp => hx p (List.mem_cons_of_mem _ hp)⟩
  rcases List.mem_cons.1 hp with rfl | hp
  · exact h
  · exact T.data p hp

/-- One step after the other; the second list covers the first. -/
theorem Turns.trans (T1 : Turns w w1 g1 l1) (T2 : Turns w1 w2 g2 l2) (h : ∀ p ∈ l1, p.1 ∈ l2.map Prod.fst) :
    Turns w w2 (fun k => g1 k + g2 k) l2 := by
  refine ⟨fun k => by rw [T2.owner, T1.owner], fun k => by rw [T2.lamports, T1.lamports]; ring, T2.data, fun k hk => ?_⟩
  rw [T2.rest k hk, T1.rest k]
  intro p hp e
  obtain ⟨q, hq, e'⟩ := List.mem_map.1 (h p hp)
  exact hk q hq (e.trans e'.symm)

theorem Turns.congr (T : Turns w w' g l) (hg : ∀ k, g k = g1 k) (hl : ∀ p, p ∈ l1 ↔ p ∈ l) : Turns w w' g1 l1 :=
  ⟨T.owner, fun k => by rw [← hg]; exact T.lamports k, fun p hp => T.data p ((hl p).1 hp),
    fun k hk => T.rest k fun p hp => hk p ((hl p).2 hp)⟩

theorem Turns.fst {k : Key} {D : Data} (T : Turns w w' g ((k, D) :: l)) : (w' k).data = D := T.data _ (List.mem_cons_self ..)

theorem Turns.snd {k : Key} {D : Data} {p : Key × Data} (T : Turns w w' g (p :: (k, D) :: l)) : (w' k).data = D :=
  T.data (k, D) (List.mem_cons_of_mem _ (List.mem_cons_self ..))

theorem Turns.eq_of (T : Turns w w' g l) {k : Key} (h : ∀ p ∈ l, k ≠ p.1) (hg : g k = 0) : w' k = w k := by
  have h1 := T.owner k
  have h2 := T.lamports k
  have h3 := T.rest k h
  rw [hg] at h2
  have h2' : (w' k).lamports = (w k).lamports := by omega
  cases e1 : w' k; cases e2 : w k
  simp_all

theorem pays_zero (a b k : Key) : pays a b 0 k = 0 := by unfold pays; split_ifs <;> rfl

theorem pays_self (a : Key) (n : Nat) (k : Key) : pays a a n k = 0 := by unfold pays; split_ifs <;> omega

/-- A settlement, in full. -/
theorem Harvested.turns {ck hk auth sk : Key} {c : Config} {d : Delegation} {h : HolderRewards} {rs rh : Nat}
    (H : Harvested env w w1 ck hk auth (env.vaultAuth ck) sk none c d h rs rh) (hcO : (w ck).owner = progId)
    (hsO : (w sk).owner = progId) (hb : belongs sk ck) (ha : auth = ck → rs + rh = 0) :
    Turns w w1 (pays ck auth (accrued env w ck sk)) [(ck, .config (c.paid (w ck).lamports (accrued env w ck sk))),
      (sk, (w sk).data.setDel (d.seen (currentAcc c (w ck).lamports) (holderAcc env ck w)))] := by
  have hp := H.paid hcO hsO hb
  refine ⟨H.owner, fun k => ?_, fun p hp' => ?_, fun k hk => ?_⟩
  · rw [← hp]
    by_cases e : auth = ck
    · rw [ha e, pays_zero, H.moves_zero (ha e) k]; simp
    · have := H.moves (by simp) (H.auth_eq ▸ e) k
      rw [← H.auth_eq] at this
      simp only [keeperReward, reduceCtorEq, if_false, Nat.sub_zero, Nat.add_zero] at this
      unfold pays
      split_ifs at this ⊢ <;> omega
  · simp only [List.mem_cons, List.not_mem_nil, or_false] at hp'
    rcases hp' with rfl | rfl
    · rw [H.config', hp]; rfl
    · rw [H.stake', H.record]; rfl
  · simp only [List.mem_cons, List.not_mem_nil, or_false, forall_eq_or_imp, forall_eq] at hk
    exact H.data' k hk.1 hk.2

theorem Adjusted.turns {ck sk : Key} {D' : Data} {c : Config} {d d' : Delegation} (A : Adjusted w w' ck sk D' c d d') :
    Turns w w' (fun _ => 0) [(ck, .config { c with effTotal := c.effTotal - d.effective + d'.effective }), (sk, D')] := by
  refine ⟨A.owner, fun k => by rw [A.lamports]; omega, fun p hp' => ?_, fun k hk => ?_⟩
  · simp only [List.mem_cons, List.not_mem_nil, or_false] at hp'
    rcases hp' with rfl | rfl
    · exact A.config'
    · exact A.stake'
  · simp only [List.mem_cons, List.not_mem_nil, or_false, forall_eq_or_imp, forall_eq] at hk
    exact A.data' k hk.1 hk.2

theorem setD_turns (k : Key) (D : Data) : Turns w (w.setD k D) (fun _ => 0) [(k, D)] := by
  refine ⟨fun _ => by simp, fun _ => by simp, fun p hp => ?_, fun x hx => ?_⟩
  · simp only [List.mem_cons, List.not_mem_nil, or_false] at hp
    subst hp; rw [World.setD_data, if_pos rfl]
  · rw [World.setD_data, if_neg (hx (k, D) (by simp))]

theorem setD2_turns {k k' : Key} (h : k ≠ k') (D D' : Data) :
    Turns w ((w.setD k D).setD k' D') (fun _ => 0) [(k, D), (k', D')] := by
  have := ((setD_turns (w := w) k D).trans ((setD_turns (w := w.setD k D) k' D').mark (k := k) (D := D)
    (by rw [World.setD_data, if_neg h, World.setD_data, if_pos rfl])) (by simp))
  exact this.congr (by simp) (by simp)

theorem Burned.turns {k mk au : Key} {n : Nat} {t : TokenAccount} {m : Mint} (B : Burned ctx w w' k mk au n t m) :
    Turns w w' (fun _ => 0) [(k, .token (t.less au n)), (mk, .mint { m with supply := m.supply - n })] := by
  rw [B.eq]
  refine setD2_turns ?_ _ _
  rintro rfl
  have := B.acct
  rw [B.mintD] at this; cases this

theorem Transferred.turns {src mk dst au : Key} {sg : Bool} {n : Nat} {s d : TokenAccount}
    (T : Transferred ctx w w' src mk dst au sg n s d) :
    Turns w w' (fun _ => 0) (if src = dst then [] else [(src, .token (s.less au n)), (dst, .token { d with amount := d.amount + n })]) := by
  split_ifs with h
  · rw [T.self h]; exact ⟨fun _ => rfl, fun _ => by simp, by simp, fun _ _ => rfl⟩
  · rw [(T.other h).2]; exact setD2_turns h _ _

/-- A settlement followed by a new stake, in full. -/
theorem Harvested.adjust_turns {ck hk auth sk : Key} {c c1 : Config} {d d1 d2 : Delegation} {h : HolderRewards} {rs rh : Nat} {D' : Data}
    (H : Harvested env w w1 ck hk auth (env.vaultAuth ck) sk none c d h rs rh) (hcO : (w ck).owner = progId)
    (hsO : (w sk).owner = progId) (hb : belongs sk ck) (ha : auth = ck → rs + rh = 0)
    (A : Adjusted w1 w2 ck sk D' c1 d1 d2) (hd : d1.effective = d.effective) :
    Turns w w2 (pays ck auth (accrued env w ck sk)) [(ck, .config { c.paid (w ck).lamports (accrued env w ck sk) with
      effTotal := c.effTotal - d.effective + d2.effective }), (sk, D')] := by
  have T := H.turns hcO hsO hb ha
  have hc1 : c1 = c.paid (w ck).lamports (accrued env w ck sk) := by
    have := A.config
    rw [T.data _ (List.mem_cons_self ..)] at this
    simpa using this.symm
  subst hc1
  have := T.trans A.turns (by simp)
  refine this.congr (by simp) (fun p => ?_)
  rw [hd]; rfl

/-- If nothing moves lamports after a settlement and the listed accounts keep their sum, a config that would pay itself pays
nothing. -/
theorem Harvested.self_zero {ck hk auth sk : Key} {c : Config} {d : Delegation} {h : HolderRewards} {rs rh : Nat} {va : Key}
    (H : Harvested env w w1 ck hk auth va sk none c d h rs rh) {l : List Key} (hs : lamportSum w' l = lamportSum w l)
    (L : ∀ k, (w' k).lamports = (w1 k).lamports) (hck : ck ∈ l) : auth = ck → rs + rh = 0 := by
  rintro rfl
  have h1 := H.sum hck hck (by simp) (by simp)
  have h2 : lamportSum w' l = lamportSum w1 l := by simp only [lamportSum, L]
  rw [if_pos rfl] at h1
  omega

/-- Paying out once more from a config that is up to date. -/
theorem paid_paid {c : Config} {L p r e : Nat} (W : w.WF) {ck : Key}
    (hc : (w ck).data = .config { c.paid L p with effTotal := e }) (hL : (w ck).lamports = L - p) :
    Config.paid { c.paid L p with effTotal := e } (w ck).lamports r = { c.paid L (p + r) with effTotal := e } ∧
      currentAcc { c.paid L p with effTotal := e } (w ck).lamports = currentAcc c L := by
  have S : Settled ck (currentAcc c L) w := ⟨_, hc, rfl, hL.symm⟩
  have h1 : currentAcc { c.paid L p with effTotal := e } (w ck).lamports = currentAcc c L := (S.accNow W hc).1
  refine ⟨?_, h1⟩
  unfold Config.paid at h1 ⊢
  rw [h1, hL]
  simp only [Nat.sub_sub]

theorem Harvested.data_eq {ck hk auth va sk k : Key} {keeper : Option Key} {c : Config} {d : Delegation} {h : HolderRewards}
    {rs rh : Nat} (H : Harvested env w w1 ck hk auth va sk keeper c d h rs rh) {D : Data} (hD : (w1 k).data = D)
    (hn : D.del? = none) (hc : ∀ c, D ≠ .config c) : (w k).data = D ∧ k ≠ ck ∧ k ≠ sk := by
  have e1 : k ≠ ck := by
    rintro rfl
    rw [H.config_data] at hD; exact hc _ hD.symm
  have e2 : k ≠ sk := by
    rintro rfl
    rw [← hD, H.del'] at hn; cases hn
  exact ⟨(H.data' k e1 e2).symm.trans hD, e1, e2⟩

/-- A slash, in full. -/
theorem SlashedOk.turns {a : SlashAccts} {n : Nat} {c : Config} {d : Delegation} {hr : HolderRewards} {rs rh : Nat}
    {D' : Data} {c1 : Config} {d1 d2 : Delegation} (S : SlashedOk env ctx w w' a n c d hr rs rh w1 w2 D' c1 d1 d2)
    (hva : a.vaultAuthority = env.vaultAuth a.config) {l : List Key} (hs : lamportSum w' l = lamportSum w l)
    (hck : a.config ∈ l) :
    let R := accrued env w a.config a.stake
    let C : Data := .config { c.paid (w a.config).lamports R with effTotal := c.effTotal - d.effective + d2.effective }
    (min n d.staked = 0 ∧ Turns w w' (pays a.config a.stakeAuthority R) [(a.config, C), (a.stake, D')]) ∨
    (min n d.staked ≠ 0 ∧ ∃ t m, tokenAt w a.vault = some t ∧ mintAt w a.mint = some m ∧
      Turns w w' (pays a.config a.stakeAuthority R) [(a.config, C), (a.stake, D'),
        (a.vault, .token (t.less a.vaultAuthority (min n d.staked))),
        (a.mint, .mint { m with supply := m.supply - min n d.staked })]) := by
  intro R C
  have H := S.harv
  have hd : d1.effective = d.effective := by rw [S.d1_eq]; rfl
  rcases S.burn with ⟨h0, hw⟩ | ⟨h0, t, m, B⟩
  · left
    have A := S.adj
    rw [hw] at A
    have hz := H.self_zero hs A.lamports hck
    rw [hva] at H
    exact ⟨h0, H.adjust_turns S.cO S.sO S.bel hz A hd⟩
  · right
    have A := S.adj
    have hz := H.self_zero hs (fun k => by rw [A.lamports, B.eq]; simp) hck
    obtain ⟨e1, v1, v2⟩ := H.data_eq B.acct rfl (by simp)
    obtain ⟨e2, m1, m2⟩ := H.data_eq B.mintD rfl (by simp)
    rw [hva] at H
    refine ⟨by omega, t, m, tokenAt_data.2 e1, mintAt_data.2 e2, ?_⟩
    have T := H.turns S.cO S.sO S.bel hz
    have hc1 : c1 = c.paid (w a.config).lamports R := by
      have := A.config
      rw [B.turns.rest a.config (by simp [Ne.symm v1, Ne.symm m1]), T.data _ (List.mem_cons_self ..)] at this
      simpa using this.symm
    have T1 := (A.turns.mark (k := a.mint) (A.turns.rest _ (by simp [m1, m2]))).mark (k := a.vault)
      (A.turns.rest _ (by simp [v1, v2]))
    rw [B.turns.fst, B.turns.snd] at T1
    have T2 := B.turns.trans T1 (by simp)
    refine (T.trans T2 (by simp)).congr (by simp [R]) (fun p => ?_)
    rw [hd, hc1]
    simp only [List.mem_cons, List.not_mem_nil, or_false]
    tauto

/-- A stake, in full: first the settlement, the new stake and the transfer to the vault, then the deposit. -/
theorem StakedOk.turns {a : StakeTokensAccts} {n : Nat} {c : Config} {d : Delegation} {hr : HolderRewards} {rs rh : Nat}
    {w3 : World} {D' : Data} {c1 : Config} {d1 d2 : Delegation} {ts td : TokenAccount}
    (S : StakedOk env o ctx w w' a n c d hr rs rh w1 w2 w3 D' c1 d1 d2 ts td) (ha : a.stakeAuthority ≠ a.config) :
    let R := accrued env w a.config a.stake
    let C : Data := .config { c.paid (w a.config).lamports R with effTotal := c.effTotal - d.effective + d2.effective }
    o.deposit w3 (vaultCall env a.config c a.holderRewardsPool a.holderRewardsPoolTokenAccount a.mint n) = .ok w' ∧
    tokenAt w a.sourceTokenAccount = some ts ∧ tokenAt w a.vault = some td ∧
    Turns w w3 (pays a.config a.stakeAuthority R) ([(a.config, C), (a.stake, D')] ++
      if a.sourceTokenAccount = a.vault then [] else
        [(a.sourceTokenAccount, .token (ts.less a.sourceTokenAccountAuthority n)),
          (a.vault, .token { td with amount := td.amount + n })]) := by
  intro R C
  have H := S.harv
  have A := S.adj
  have hd : d1.effective = d.effective := by rw [S.d1_eq]; rfl
  have T := H.adjust_turns S.cO S.sO S.bel (fun e => absurd e ha) A hd
  have apart : ∀ k t, (w2 k).data = .token t → (w k).data = .token t ∧ k ≠ a.config ∧ k ≠ a.stake := by
    intro k t hk
    have e1 : k ≠ a.config := by rintro rfl; rw [A.config'] at hk; cases hk
    have e2 : k ≠ a.stake := by
      rintro rfl
      have := A.del'
      rw [A.stake'] at hk; rw [hk] at this; cases this
    exact ⟨by rw [← T.rest k (by simp [e1, e2])]; exact hk, e1, e2⟩
  obtain ⟨s0, s1, s2⟩ := apart _ _ S.transfer.src
  obtain ⟨v0, v1, v2⟩ := apart _ _ S.transfer.dst
  refine ⟨?_, tokenAt_data.2 s0, tokenAt_data.2 v0, ?_⟩
  · have := S.deposit
    have e1 : a.call n = vaultCall env a.config c a.holderRewardsPool a.holderRewardsPoolTokenAccount a.mint n := by
      unfold StakeTokensAccts.call vaultCall
      rw [H.hk_eq, S.vaultPda, S.vault]; rfl
    rw [← e1]; exact this
  · have T3 := S.transfer.turns
    by_cases hsv : a.sourceTokenAccount = a.vault
    · rw [if_pos hsv, List.append_nil]
      rw [S.transfer.self hsv]; exact T
    · rw [if_neg hsv]
      rw [if_neg hsv] at T3
      have T4 := (T3.mark (k := a.stake) (T3.rest _ (by simp [Ne.symm s2, Ne.symm v2]))).mark (k := a.config)
        (T3.rest _ (by simp [Ne.symm s1, Ne.symm v1]))
      rw [T.fst, T.snd] at T4
      exact (T.trans T4 (by simp)).congr (by simp [R]) (fun p => Iff.rfl)

/-- An unstake, in full: the settlement and the new stake, the withdrawal, the transfer from the vault. -/
theorem UnstakedOk.turns {a : UnstakeTokensAccts} {n : Nat} {c : Config} {d : Delegation} {hr : HolderRewards} {rs rh : Nat}
    {w3 : World} {D' : Data} {c1 : Config} {d1 d2 : Delegation} {call : RewardsCall} {ts td : TokenAccount}
    (S : UnstakedOk env o ctx w w' a n c d hr rs rh w1 w2 w3 D' c1 d1 d2 call ts td) (ha : a.stakeAuthority ≠ a.config) :
    let R := accrued env w a.config a.stake
    let C : Data := .config { c.paid (w a.config).lamports R with effTotal := c.effTotal - d.effective + d2.effective }
    Turns w w2 (pays a.config a.stakeAuthority R) [(a.config, C), (a.stake, D')] ∧
    o.withdraw w2 (vaultCall env a.config c a.holderRewardsPool a.holderRewardsPoolTokenAccount a.mint n) = .ok w3 ∧
    tokenAt w3 a.vault = some ts ∧ tokenAt w3 a.destinationTokenAccount = some td ∧
    Turns w3 w' (fun _ => 0) [(a.vault, .token (ts.less (env.vaultAuth a.config) n)),
      (a.destinationTokenAccount, .token { td with amount := td.amount + n })] := by
  intro R C
  have H := S.harv
  have hd : d1.effective = d.effective := by rw [S.d1_eq]; rfl
  refine ⟨H.adjust_turns S.cO S.sO S.bel (fun e => absurd e ha) S.adj hd, ?_, tokenAt_data.2 S.transfer.src,
    tokenAt_data.2 S.transfer.dst, ?_⟩
  · have e1 : call = vaultCall env a.config c a.holderRewardsPool a.holderRewardsPoolTokenAccount a.mint n := by
      rw [S.call_eq]
      unfold UnstakeTokensAccts.call vaultCall
      rw [H.hk_eq, S.vaultPda, S.vault]; rfl
    rw [← e1]; exact S.withdraw
  · have := S.transfer.turns
    rw [if_neg S.dest, S.vaultPda] at this
    exact this

/-- A move, in full. -/
theorem MovedOk.turns (I : Inv env w) {a : SolStakerMoveTokensAccts} {n : Nat} {c c' : Config} {s t : SolStakerStake}
    {hr : HolderRewards} {rs rh rs' rh' : Nat} {wx : World} {cs ct : Config} {ds dt ds' dt' : Delegation}
    (M : MovedOk env ctx w w' a n c c' s t hr rs rh rs' rh' w1 w2 wx cs ct ds dt ds' dt') {l : List Key}
    (hs : lamportSum w' l = lamportSum w l) (hck : a.config ∈ l) :
    let R := accrued env w a.config a.sourceSolStakerStake + accrued env w a.config a.destinationSolStakerStake
    ds'.lastStake = currentAcc c (w a.config).lamports ∧ dt'.lastStake = currentAcc c (w a.config).lamports ∧
    hr.lastAcc = holderAcc env a.config w ∧
    Turns w w' (pays a.config a.solStakerAuthority R)
      [(a.config, .config { c.paid (w a.config).lamports R with
          effTotal := c.effTotal - s.del.effective + ds'.effective - t.del.effective + dt'.effective }),
        (a.sourceSolStakerStake, .solStaker { s with del := ds' }),
        (a.destinationSolStakerStake, .solStaker { t with del := dt' })] := by
  intro R
  have H := M.harvS
  have H' := M.harvT
  have bs : belongs a.sourceSolStakerStake a.config := by rw [M.sk]; simp [belongs]
  have bt : belongs a.destinationSolStakerStake a.config := by rw [M.tk]; simp [belongs]
  have L : ∀ k, (w' k).lamports = (w2 k).lamports := fun k => by rw [M.adjT.lamports, M.adjS.lamports]
  have hz : a.solStakerAuthority = a.config → rs + rh = 0 ∧ rs' + rh' = 0 := by
    intro e
    have h1 := H.sum hck (e ▸ hck) (by simp) (by simp)
    have h2 := H'.sum hck (e ▸ hck) (by simp) (by simp)
    have h3 : lamportSum w' l = lamportSum w2 l := by simp only [lamportSum, L]
    rw [if_pos e] at h1 h2
    omega
  have hcO1 : (w1 a.config).owner = progId := by rw [H.owner]; exact M.cO
  have htO1 : (w1 a.destinationSolStakerStake).owner = progId := by rw [H.owner]; exact M.tO
  have I1 := harvest_inv I H M.cO M.sO bs
  have T1 := H.turns M.cO M.sO bs (fun e => (hz e).1)
  have T2 := H'.turns hcO1 htO1 bt (fun e => (hz e).2)
  have hp1 := H.paid M.cO M.sO bs
  have hkc0 := H.ne
  have hkc := H'.ne
  have S := H.settled (by simp) (fun e => (hz e).1)
  have ea : accrued env w1 a.config a.destinationSolStakerStake = accrued env w a.config a.destinationSolStakerStake := by
    rw [accrued_settled S I1.wf hcO1, dueAt_congr (H.stakeAt_other hkc M.ne) (H.holderAcc' _),
      accrued_dueAt (configAt_eq.2 ⟨M.cO, H.config⟩)]
  have hc' : c' = c.paid (w a.config).lamports (accrued env w a.config a.sourceSolStakerStake) := by
    have := H'.config
    rw [T1.data _ (List.mem_cons_self ..)] at this
    simpa using this.symm
  have hL : (w1 a.config).lamports = (w a.config).lamports - accrued env w a.config a.sourceSolStakerStake := by
    obtain ⟨c0, h0, _, h2⟩ := S
    rw [T1.data _ (List.mem_cons_self ..)] at h0
    cases h0
    exact h2.symm
  obtain ⟨q1, q2⟩ := paid_paid (e := c.effTotal) (r := accrued env w a.config a.destinationSolStakerStake) I1.wf
    (T1.data _ (List.mem_cons_self ..)) hL
  have acc1 : currentAcc c' (w1 a.config).lamports = currentAcc c (w a.config).lamports := by rw [hc']; exact q2
  refine ⟨by rw [M.ds'_eq, M.ds_eq]; rfl, by rw [M.dt'_eq, M.dt_eq]; exact acc1, H.record.symm, ?_⟩
  have d1 : ds.effective = s.del.effective := by rw [M.ds_eq]; rfl
  have d2 : dt.effective = t.del.effective := by rw [M.dt_eq]; rfl
  rw [ea] at T2
  have hcs : cs = c.paid (w a.config).lamports R := by
    have := M.adjS.config
    rw [T2.data _ (List.mem_cons_self ..), hc'] at this
    have := Data.config.inj this
    rw [← this]
    exact q1
  have hct : ct = { c.paid (w a.config).lamports R with effTotal := c.effTotal - s.del.effective + ds'.effective } := by
    have := M.adjT.config
    rw [M.adjS.turns.data _ (List.mem_cons_self ..), hcs, d1] at this
    exact (Data.config.inj this).symm
  have T4 := M.adjT.turns.mark (k := a.sourceSolStakerStake) (M.adjT.turns.rest _ (by simp [hkc0, Ne.symm M.ne]))
  rw [M.adjS.turns.snd] at T4
  have T34 := M.adjS.turns.trans T4 (by simp)
  have T234 := T2.trans T34 (by simp)
  refine (T1.trans T234 (by simp)).congr (fun k => ?_) (fun p => ?_)
  · simp only [add_zero, pays, R]
    split_ifs <;> push_cast <;> ring
  · rw [hct, d2]
    simp only [List.mem_cons, List.not_mem_nil, or_false]
    tauto

/-- A holder harvest, in full. -/
theorem harvestHolder_turns (I : Inv env w) (O : o.Ok) {a : HarvestHolderRewardsAccts}
    (h : harvestHolderRewards env o w a = .ok w') :
    ∃ c w1 w2, configAt w a.config = some c ∧ a.vaultPda = env.vaultAuth a.config ∧
      Turns w w1 (fun _ => 0) [(a.config, .config (c.paid (w a.config).lamports 0))] ∧
      o.harvestRewards w1 (harvestCall env a.config a.holderRewardsPool a.holderRewardsPoolTokenAccount a.mint) = .ok w2 ∧
      env.rentMin (w2 a.vaultPda).data.len ≤ (w2 a.vaultPda).lamports ∧
      Turns w2 w' (pays a.vaultPda a.config ((w2 a.vaultPda).lamports - env.rentMin (w2 a.vaultPda).data.len))
        [(a.config, .config { c.paid (w a.config).lamports 0 with
          lamportsLast := (w2 a.config).lamports + ((w2 a.vaultPda).lamports - env.rentMin (w2 a.vaultPda).data.len) })] := by
  obtain ⟨c, _, _, _, _, hcO, hc, hvault, hcurve, hpda, hhO, hhk, hlast, _⟩ := harvestHolderRewards_ok h
  have hcA := configAt_eq.2 ⟨hcO, hc⟩
  have Cc := I.config _ c hcA
  have Wc := wf_config I hc
  have hp : a.vaultPda = env.vaultAuth a.config := by rw [hpda, Cc.bump]; rfl
  have hkey := I.config_key hcA
  have hva : a.vaultPda ≠ a.config := fun e => by
    rw [hp] at e; rw [← e] at hkey; simp [Env.vaultAuth, Key.ofProgram] at hkey
  simp only [harvestHolderRewards, bind_ok, require_ok, exists_unit, unpackConfig_ok, unpackToken_ok,
    createVaultPda_ok, setData_ok, transferExcess, setLamports_ok] at h
  obtain ⟨_, c0, hc0, _, _, tv, _, _, vs, ⟨_, rfl⟩, _, _, _, c1, hc1, w1, ⟨_, hw1⟩, w2, hw2, w4,
    ⟨hrent, hsup, w3, ⟨hown, rfl⟩, _, rfl⟩, c2, hc2, _, rfl⟩ := h
  have e0 : c0 = c := by rw [hc] at hc0; simpa using hc0.symm
  subst e0
  obtain ⟨_, rfl⟩ := syncConfigLamports_ok hc1
  simp only [World.setL_data] at hc2
  have I1 : Inv env w1 := by
    rw [hw1]
    refine I.modifyConfig (c' := c0.settled (w a.config).lamports 0) hcO hc (fun k => by simp)
      (by simp only [World.setD_data, if_true]; rfl)
      (fun k hk => by simp [World.setD_data, hk]) rfl Cc.bps rfl (by simp [Config.settled])
      (by simpa using Cc.rent) (fun k _ _ => by simp) ?_
    refine ⟨fun k => ⟨by simpa using (I.wf.1 k).1, ?_⟩, by simpa using I.wf.2⟩
    rw [World.setD_data]
    split_ifs
    · obtain ⟨h1, h2, h3, h4, h5, h6, h7⟩ := Wc
      have := (I.wf.1 a.config).1
      exact ⟨h1, h2, h3, by omega, accNow_lt _ _, h6, h7⟩
    · exact (I.wf.1 k).2
  have E2 := O.harvestRewards I1.wf hw2
  have hcA1 : configAt w1 a.config = some (c0.paid (w a.config).lamports 0) :=
    configAt_eq.2 ⟨by rw [hw1]; simpa using hcO, by rw [hw1, World.setD_data, if_pos rfl]; rfl⟩
  have hcA2 := (ext_config I1 E2 hcA1).1
  have hc2' := (configAt_eq.1 hcA2).2
  rw [hc2] at hc2'
  have e2 := Data.config.inj hc2'
  subst e2
  have hsub : (w2 a.vaultPda).lamports - ((w2 a.vaultPda).lamports - env.rentMin (w2 a.vaultPda).data.len) =
      env.rentMin (w2 a.vaultPda).data.len := by omega
  have hsup := hsup.resolve_left hva
  have hmod := Nat.mod_eq_of_lt (show (w2 a.config).lamports +
      ((w2 a.vaultPda).lamports - env.rentMin (w2 a.vaultPda).data.len) < U64 by omega)
  refine ⟨c0, w1, w2, hcA, hp, ?_, ?_, hrent, ?_⟩
  · rw [hw1]; exact setD_turns _ _
  · rw [show harvestCall env a.config a.holderRewardsPool a.holderRewardsPoolTokenAccount a.mint =
      { pool := a.holderRewardsPool, poolToken := a.holderRewardsPoolTokenAccount, holderRewards := a.vaultHolderRewards,
        mint := a.mint, owner := a.vaultPda, token := a.holderRewardsPoolTokenAccount, amount := 0 } by
      rw [hhk, hp]; rfl]
    exact hw2
  · refine ⟨fun _ => by simp, fun k => ?_, fun p hp' => ?_, fun k hk => ?_⟩
    · simp only [World.setD_lamports, World.setL_lamports, hmod, Ne.symm hva, if_false, hsub, pays]
      split_ifs <;> simp_all
    · simp only [List.mem_cons, List.not_mem_nil, or_false] at hp'
      subst hp'
      simp only [World.setD_data, if_true, World.setL_lamports, hmod, Ne.symm hva, if_false]
    · rw [World.setD_data, if_neg (hk _ (List.mem_cons_self ..))]; simp

/-- The same config up to the figures of the rewards. -/
def SameTerms (c c' : Config) : Prop := c' = { c with acc := c'.acc, lamportsLast := c'.lamportsLast, effTotal := c'.effTotal }

theorem SameTerms.trans {c c' c'' : Config} (h : SameTerms c c') (h' : SameTerms c' c'') : SameTerms c c'' := by
  unfold SameTerms at *
  rw [h', h]

theorem Retotaled.terms {ck hk auth sk : Key} {v : ValidatorStake} {total : Nat} {c : Config} {hr : HolderRewards}
    {rs rh : Nat} {c1 : Config} {d1 d2 : Delegation}
    (R : Retotaled env w w' ck hk auth sk v total c hr rs rh w1 c1 d1 d2) :
    ∃ c', (w' ck).data = .config c' ∧ SameTerms c c' := by
  have h1 := R.adj.config
  rw [R.harv.config'] at h1
  have := Data.config.inj h1
  subst this
  exact ⟨_, R.adj.config', rfl⟩

theorem Retotaled.final {ck hk auth sk : Key} {v : ValidatorStake} {total : Nat} {c : Config} {hr : HolderRewards}
    {rs rh : Nat} {c1 : Config} {d1 d2 : Delegation}
    (R : Retotaled env w w' ck hk auth sk v total c hr rs rh w1 c1 d1 d2) (W : w.WF) {acc : Nat} (S : Settled ck acc w) :
    (w' sk).data = .validator (v.retotal acc (holderAcc env ck w) total) := by
  rw [R.adj.stake', R.d2_eq, R.d1_eq, (S.accNow W R.harv.config).1, R.harv.record]
  rfl

theorem retotal_retotal (v : ValidatorStake) (acc hacc t t' : Nat) :
    (v.retotal acc hacc t).retotal acc hacc t' = v.retotal acc hacc t' := rfl

/-- What leaving a validator does to the contents of the accounts. -/
theorem Left.contents {a : HarvestSolStakerRewardsAccts} {s : SolStakerStake} (L : Left env w w' a s) (W : w.WF) {acc : Nat}
    (S : Settled a.config acc w) {c : Config} (hc : (w a.config).data = .config c) :
    (∃ c', (w' a.config).data = .config c' ∧ SameTerms c c') ∧
    (s.del.vote = .default ∧ w' = w ∨ s.del.vote ≠ .default ∧ ∃ v,
      validatorAt w (.validatorPda s.del.vote a.config) = some v ∧
      (w' (.validatorPda s.del.vote a.config)).data = .validator
        (v.retotal acc (holderAcc env a.config w) (v.total - s.lamports))) := by
  cases L with
  | stay h1 _ h => exact ⟨⟨c, by rw [h]; exact hc, rfl⟩, Or.inl ⟨h1, h⟩⟩
  | @leave v c0 hr rs rh _ _ _ _ h1 hk _ R =>
    have e : c0 = c := by have := R.harv.config; rw [hc] at this; exact (Data.config.inj this).symm
    refine ⟨e ▸ R.terms, Or.inr ⟨h1, v, ?_, ?_⟩⟩
    · rw [← hk]; exact validatorAt_eq.2 ⟨R.owner, R.data⟩
    · rw [← hk]; exact R.final W S

/-- What joining a validator does to the contents of the accounts. -/
theorem Joined.contents {a : HarvestSolStakerRewardsAccts} {dv vote : Key} {ds l : Nat} (J : Joined env w w' a dv ds vote l)
    (I : Inv env w) {acc : Nat} (S : Settled a.config acc w) {c : Config} (hc : (w a.config).data = .config c) :
    (∃ c', (w' a.config).data = .config c' ∧ SameTerms c c') ∧
    ((dv = .default ∧ w' = w ∧ vote = dv ∧ l = ds) ∨
     (dv ≠ .default ∧ validatorAt w (.validatorPda dv a.config) = none ∧ w' = w ∧ vote = .default ∧ l = 0) ∨
     (dv ≠ .default ∧ vote = dv ∧ l = ds ∧ ∃ v, validatorAt w (.validatorPda dv a.config) = some v ∧
      (w' (.validatorPda dv a.config)).data = .validator (v.retotal acc (holderAcc env a.config w) (v.total + ds)))) := by
  cases J with
  | undelegated h1 h => exact ⟨⟨c, by rw [h]; exact hc, rfl⟩, Or.inl ⟨h1, h, rfl, rfl⟩⟩
  | absent h1 hk ho h =>
    refine ⟨⟨c, by rw [h]; exact hc, rfl⟩, Or.inr (Or.inl ⟨h1, ?_, h, rfl, rfl⟩)⟩
    rw [← hk]; unfold validatorAt; rw [if_neg ho]
  | @join v c0 hr rs rh _ _ _ _ h1 hk R =>
    have e : c0 = c := by have := R.harv.config; rw [hc] at this; exact (Data.config.inj this).symm
    refine ⟨e ▸ R.terms, Or.inr (Or.inr ⟨h1, rfl, rfl, v, ?_, ?_⟩)⟩
    · rw [← hk]; exact validatorAt_eq.2 ⟨R.owner, R.data⟩
    · rw [← hk]; exact R.final I.wf S

/-- A harvest with a changed native stake, in full. -/
theorem solSync_turns (I : Inv env w) {a : HarvestSolStakerRewardsAccts} {s : SolStakerStake} {v : StakeView} {c : Config}
    {hr : HolderRewards} {rs rh : Nat} (B : SolHarvestBase env o w a s v)
    (H : SolHarvested env o w w' a s v c hr rs rh w1) (hn : ¬ (v.effective = s.lamports ∧ v.delegatedVote = s.del.vote))
    (ha4 : a.solStakerStakeAuthority ≠ a.config)
    (ha7 : a.previousValidatorStakeAuthority ≠ a.config) (ha9 : a.currentValidatorStakeAuthority ≠ a.config)
    (hkp : a.keeperRecipient ≠ some a.config) :
    let ck := a.config
    let acc := currentAcc c (w ck).lamports
    let hacc := holderAcc env ck w
    let R := accrued env w ck a.solStakerStake
    let K := min R c.syncRewards
    let P : Key := .validatorPda s.del.vote ck
    let Q : Key := .validatorPda v.delegatedVote ck
    let RP := if s.del.vote = .default then 0 else accrued env w ck P
    let RQ := if v.delegatedVote = .default ∨ v.delegatedVote = s.del.vote then 0 else accrued env w ck Q
    let reg : Key × Nat := if v.delegatedVote ≠ .default ∧ validatorAt w Q = none then (.default, 0) else (v.delegatedVote, v.effective)
    ∃ total, a.solStakerStakeAuthority = s.del.authority ∧
      Turns w w' (fun k => paysTo ck (some s.del.authority) (R - K) k + paysTo ck a.keeperRecipient K k +
          paysTo ck (authorityOf w P) RP k + paysTo ck (authorityOf w Q) RQ k)
        ([(ck, .config { c.paid (w ck).lamports (R + RP + RQ) with effTotal := total }),
          (a.solStakerStake, .solStaker { s with
            del := { (s.del.seen acc hacc).holding s.del.staked reg.2 with vote := reg.1 }, lamports := reg.2 })] ++
          movedBetween w ck s.del.vote v.delegatedVote s.lamports v.effective acc hacc) := by
  intro ck acc hacc R K P Q RP RQ reg
  obtain ⟨K', RP', RQ', Pay⟩ := solHarvest_payments I B H ha4 ha7 ha9 hkp
  have hneed : v.effective ≠ s.lamports ∨ v.delegatedVote ≠ s.del.vote := by
    by_contra hc; push Not at hc; exact hn hc
  have eK : K' = K := by rw [Pay.share_eq, if_pos hneed]
  have eP : RP' = RP := by
    rw [Pay.prev_eq]; simp only [hneed, true_and, RP]
    split_ifs <;> first | rfl | contradiction
  have eQ : RQ' = RQ := by
    rw [Pay.cur_eq]; simp only [RQ]
    by_cases h1 : v.delegatedVote = s.del.vote <;> by_cases h2 : v.delegatedVote = .default <;> simp [h1, h2] <;> rfl
  rw [eK, eP, eQ] at Pay
  have hcA := configAt_eq.2 ⟨B.cO, (show (w a.config).data = .config c by cases H with
    | noSync _ _ H _ => exact H.config
    | sync _ _ H _ _ _ _ _ => exact H.config)⟩
  cases H with
  | noSync h1 h2 H h => exact absurd ⟨h1, h2⟩ hn
  | @sync kp w2 w3 vote l c1 d1 d2 hn hk H L J hd1 hd2 A =>
    have hau : s.del.authority ≠ a.config := by rw [← H.auth_eq]; exact ha4
    have hc1O : (w1 a.config).owner = progId := by rw [H.owner]; exact B.cO
    have hb : belongs a.solStakerStake a.config := by rw [B.sk]; simp [belongs]
    have I1 := harvest_inv I H B.cO B.sO hb
    have I2 := L.inv I1 hc1O
    have S1 : Settled a.config acc w1 := H.settled (hk ▸ hkp) (fun e => absurd (H.auth_eq ▸ e) hau)
    have hkey := I.config_key hcA
    have hne : ∀ u, Key.validatorPda u a.config ≠ a.config := by
      intro u e; rw [← e] at hkey; simp [Key.ofProgram] at hkey
    have hne' : ∀ u, Key.validatorPda u a.config ≠ a.solStakerStake := by intro u; rw [B.sk]; simp
    have st1 : ∀ u, st w1 (.validatorPda u a.config) = st w (.validatorPda u a.config) := fun u =>
      H.stakeAt_other (hne u) (hne' u)
    have va1 : ∀ u, validatorAt w1 (.validatorPda u a.config) = validatorAt w (.validatorPda u a.config) := fun u => by
      unfold validatorAt; rw [H.owner, H.data' _ (hne u) (hne' u)]
    have ha1 : holderAcc env a.config w1 = hacc := H.holderAcc' _
    have ha2 : holderAcc env a.config w2 = hacc := by rw [holderAcc_fv L.fv]; exact ha1
    obtain ⟨⟨cL, hcL, tL⟩, LC⟩ := L.contents I1.wf S1 H.config_data
    obtain ⟨L1, _⟩ := L.settles I1.wf S1 ha7
    obtain ⟨⟨cJ, hcJ, tJ⟩, JC⟩ := J.contents I2 L1.settled hcL
    rw [ha1] at LC
    rw [ha2] at JC
    have eA : c1 = cJ := by have := A.config; rw [hcJ] at this; exact (Data.config.inj this).symm
    subst eA
    -- the config
    have tA : SameTerms c { c1 with effTotal := c1.effTotal - d1.effective + d2.effective } := by
      have h0 : SameTerms c (c.settled (w a.config).lamports (rs + rh)) := rfl
      have h3 : SameTerms c1 { c1 with effTotal := c1.effTotal - d1.effective + d2.effective } := rfl
      exact ((h0.trans tL).trans tJ).trans h3
    obtain ⟨cS, hcS, s1, s2⟩ := Pay.settled
    have hmc := Pay.moves a.config
    have hPau : RP ≠ 0 → authorityOf w P ≠ some a.config := by
      intro h0 e
      cases L with
      | stay h1 _ _ => exact h0 (by simp only [RP, h1, if_true])
      | @leave v0 _ _ _ _ _ _ _ _ h1 hk' _ R0 =>
        have : authorityOf w P = some v0.del.authority := by
          unfold authorityOf
          rw [← stakeAt_congr (st1 _)]
          show (stakeAt w1 (.validatorPda s.del.vote a.config)).map _ = _
          rw [← hk', stakeAt_validator (validatorAt_eq.2 ⟨R0.owner, R0.data⟩)]; rfl
        rw [this] at e
        exact ha7 (R0.harv.auth_eq.trans (Option.some.inj e))
    have hQau : RQ ≠ 0 → authorityOf w Q ≠ some a.config := by
      intro h0 e
      have hq : ¬ (v.delegatedVote = .default ∨ v.delegatedVote = s.del.vote) := by
        intro h; exact h0 (by simp only [RQ, h, if_true])
      push Not at hq
      have st2 : st w2 Q = st w Q := (L1.others _ (hne _) (by simpa using hq.2)).trans (st1 _)
      cases J with
      | undelegated h1 _ => exact hq.1 h1
      | absent h1 hk' ho _ =>
        unfold authorityOf at e
        rw [← stakeAt_congr st2] at e
        have : stakeAt w2 Q = none := by 
          rw [stakeAt_eq', if_neg (by show ¬ (w2 (.validatorPda v.delegatedVote a.config)).owner = progId; rw [← hk']; exact ho)]
        rw [this] at e; cases e
      | @join v0 _ _ _ _ _ _ _ _ h1 hk' R0 =>
        have : authorityOf w Q = some v0.del.authority := by
          unfold authorityOf
          rw [← stakeAt_congr st2]
          show (stakeAt w2 (.validatorPda v.delegatedVote a.config)).map _ = _
          rw [← hk', stakeAt_validator (validatorAt_eq.2 ⟨R0.owner, R0.data⟩)]; rfl
        rw [this] at e
        exact ha9 (R0.harv.auth_eq.trans (Option.some.inj e))
    have hlam : (w' a.config).lamports = (w a.config).lamports - (R + RP + RQ) := by
      rw [if_pos rfl, if_neg (Ne.symm hau), if_neg hkp] at hmc
      have e1 : (if authorityOf w (.validatorPda s.del.vote a.config) = some a.config then RP else 0) = 0 := by
        by_cases h0 : RP = 0
        · rw [h0, ite_self]
        · exact if_neg (hPau h0)
      have e2 : (if authorityOf w (.validatorPda v.delegatedVote a.config) = some a.config then RQ else 0) = 0 := by
        by_cases h0 : RQ = 0
        · rw [h0, ite_self]
        · exact if_neg (hQau h0)
      rw [e1, e2] at hmc
      change (w' a.config).lamports + (R + RP + RQ) = (w a.config).lamports + 0 + 0 + 0 + 0 at hmc
      omega
    have hC : (w' a.config).data = .config { c.paid (w a.config).lamports (R + RP + RQ) with effTotal := cS.effTotal } := by
      have h4 := A.config'
      rw [h4] at hcS
      have h5 := Data.config.inj hcS
      rw [h4, h5]
      rw [h5] at tA
      congr 1
      rw [tA, s1, s2, hlam]; rfl
    -- the validators
    have hv2 : ∀ u, u ≠ s.del.vote ∨ s.del.vote = .default →
        validatorAt w2 (.validatorPda u a.config) = validatorAt w (.validatorPda u a.config) := by
      intro u hu
      rw [← va1]
      rcases LC with ⟨_, e⟩ | ⟨e, _⟩
      · rw [e]
      · have hu := hu.resolve_right e
        unfold validatorAt
        rw [L.owner, L.data_other (hne u) (by simpa using hu)]
    have hP2 : s.del.vote ≠ .default → ∃ x, validatorAt w P = some x ∧
        validatorAt w2 P = some (x.retotal acc hacc (x.total - s.lamports)) := by
      intro h0
      rcases LC with ⟨e, _⟩ | ⟨_, x, hx, hx'⟩
      · exact absurd e h0
      · refine ⟨x, by rw [← va1]; exact hx, validatorAt_eq.2 ⟨?_, hx'⟩⟩
        rw [L.owner]; exact (validatorAt_eq.1 hx).1
    have w3w' : ∀ u, (w' (.validatorPda u a.config)).data = (w3 (.validatorPda u a.config)).data := fun u =>
      A.data' _ (hne u) (hne' u)
    have other3 : ∀ u, u ≠ v.delegatedVote → (w3 (.validatorPda u a.config)).data = (w2 (.validatorPda u a.config)).data := fun u hu =>
      J.data_other (hne u) (by simpa using hu)
    have hval : ∀ u, (u = s.del.vote ∨ u = v.delegatedVote) → u ≠ .default → ∀ x,
        validatorAt w (.validatorPda u a.config) = some x → (w' (.validatorPda u a.config)).data = .validator
          (x.retotal acc hacc (x.total - (if u = s.del.vote then s.lamports else 0) + if u = v.delegatedVote then v.effective else 0)) := by
      intro u hu h0 x hx
      rw [w3w']
      by_cases hup : u = s.del.vote
      · subst hup
        obtain ⟨y, hy, hy2⟩ := hP2 h0
        have e : y = x := by have := hy.symm.trans hx; exact Option.some.inj this
        subst e
        by_cases hq : s.del.vote = v.delegatedVote
        · rw [if_pos rfl, if_pos hq]
          rcases JC with ⟨e, _⟩ | ⟨_, e, _⟩ | ⟨_, _, _, z, hz, hz'⟩
          · exact absurd (hq.trans e) h0
          · rw [← hq] at e; rw [show P = .validatorPda s.del.vote a.config from rfl, e] at hy2; cases hy2
          · rw [← hq] at hz hz'
            have e : z = y.retotal acc hacc (y.total - s.lamports) := Option.some.inj (hz.symm.trans hy2)
            rw [hz', e, retotal_retotal]; rfl
        · rw [if_pos rfl, if_neg hq, other3 _ hq, Nat.add_zero]
          exact (validatorAt_eq.1 hy2).2
      · have huq := hu.resolve_left hup
        subst huq
        have hx2 := (hv2 _ (Or.inl hup)).trans hx
        rw [if_neg hup, if_pos rfl, Nat.sub_zero]
        rcases JC with ⟨e, _⟩ | ⟨_, e, _⟩ | ⟨_, _, _, z, hz, hz'⟩
        · exact absurd e h0
        · rw [e] at hx2; cases hx2
        · have e : z = x := Option.some.inj (hz.symm.trans hx2)
          rw [hz', e]
    have hreg : vote = reg.1 ∧ l = reg.2 := by
      have hQ2 : v.delegatedVote ≠ .default → (validatorAt w2 Q = none ↔ validatorAt w Q = none) := by
        intro h0
        by_cases hq : v.delegatedVote = s.del.vote
        · obtain ⟨y, hy, hy2⟩ := hP2 (hq ▸ h0)
          rw [show Q = P by simp only [Q, P, hq], hy, hy2]; simp
        · rw [show Q = .validatorPda v.delegatedVote a.config from rfl, hv2 _ (Or.inl hq)]
      rcases JC with ⟨e, _, e2, e3⟩ | ⟨h0, e, _, e2, e3⟩ | ⟨h0, e2, e3, z, hz, _⟩
      · simp only [reg, e, ne_eq, not_true_eq_false, false_and, if_false]; exact ⟨e2.trans e, e3⟩
      · have : reg = (.default, 0) := if_pos ⟨h0, (hQ2 h0).1 e⟩
        rw [this]; exact ⟨e2, e3⟩
      · have : reg = (v.delegatedVote, v.effective) := if_neg (fun h => by
          have := (hQ2 h0).2 h.2
          rw [show Q = .validatorPda v.delegatedVote a.config from rfl, hz] at this; cases this)
        rw [this]; exact ⟨e2, e3⟩
    have hsk : (w' a.solStakerStake).data = .solStaker { s with
        del := { (s.del.seen acc hacc).holding s.del.staked reg.2 with vote := reg.1 }, lamports := reg.2 } := by
      rw [A.stake', hd2, hd1, ← H.record, ← hreg.1, ← hreg.2]; rfl
    have hmem : ∀ q : Key × Data, q ∈ movedBetween w a.config s.del.vote v.delegatedVote s.lamports v.effective acc hacc ↔
        ∃ u, (u = s.del.vote ∨ u = v.delegatedVote) ∧ u ≠ .default ∧ ∃ x, validatorAt w (.validatorPda u a.config) = some x ∧
          (Key.validatorPda u a.config, Data.validator (x.retotal acc hacc
            (x.total - (if u = s.del.vote then s.lamports else 0) + if u = v.delegatedVote then v.effective else 0))) = q := by
      intro q
      unfold movedBetween
      simp only [List.mem_filterMap, List.mem_filter, List.mem_cons, List.not_mem_nil, or_false, decide_eq_true_eq,
        Option.map_eq_some_iff, and_assoc]
    refine ⟨cS.effTotal, H.auth_eq, ⟨fun k => ?_, fun k => ?_, fun q hq => ?_, fun k hk => ?_⟩⟩
    · rw [A.owner, J.owner, L.owner, H.owner]
    · have h1 := Pay.moves k
      have hKR : K ≤ R := Nat.min_le_left _ _
      simp only [paysTo]
      have hsome : (some s.del.authority = some k) = (k = s.del.authority) := by
        rw [Option.some.injEq]; exact propext eq_comm
      simp only [hsome]
      change (w' k).lamports + (if k = ck then R + RP + RQ else 0) =
        (w k).lamports + (if k = s.del.authority then R - K else 0) +
        (if a.keeperRecipient = some k then K else 0) +
        (if authorityOf w P = some k then RP else 0) +
        (if authorityOf w Q = some k then RQ else 0) at h1
      clear_value R K RP RQ
      split_ifs at h1 ⊢ <;> omega
    · rw [List.mem_append] at hq
      rcases hq with hq | hq
      · simp only [List.mem_cons, List.not_mem_nil, or_false] at hq
        rcases hq with rfl | rfl
        · exact hC
        · exact hsk
      · obtain ⟨u, h1, h2, x, hx, rfl⟩ := (hmem q).1 hq
        exact hval u h1 h2 x hx
    · have k1 : k ≠ a.config := hk (_, _) (List.mem_append_left _ (List.mem_cons_self ..))
      have k2 : k ≠ a.solStakerStake := hk (_, _) (List.mem_append_left _ (List.mem_cons_of_mem _ (List.mem_cons_self ..)))
      have k3 : ∀ u, (u = s.del.vote ∨ u = v.delegatedVote) → u ≠ .default → ∀ x,
          validatorAt w (.validatorPda u a.config) = some x → k ≠ .validatorPda u a.config := by
        intro u h1 h2 x hx
        exact hk (_, _) (List.mem_append_right _ ((hmem _).2 ⟨u, h1, h2, x, hx, rfl⟩))
      have k12 : (w2 k).data = (w1 k).data := by
        rcases LC with ⟨_, e⟩ | ⟨h0, x, hx, _⟩
        · rw [e]
        · rw [va1] at hx
          exact L.data_other k1 (k3 _ (Or.inl rfl) h0 x hx)
      have k23 : (w3 k).data = (w2 k).data := by
        rcases JC with ⟨_, e, _⟩ | ⟨_, _, e, _⟩ | ⟨h0, _, _, z, hz, _⟩
        · rw [e]
        · rw [e]
        · refine J.data_other k1 ?_
          by_cases hq : v.delegatedVote = s.del.vote
          · obtain ⟨y, hy, _⟩ := hP2 (hq ▸ h0)
            rw [hq]
            exact k3 _ (Or.inl rfl) (hq ▸ h0) y hy
          · exact k3 _ (Or.inr rfl) h0 z ((hv2 _ (Or.inl hq)).symm.trans hz)
      rw [A.data' k k1 k2, k23, k12, H.data' k k1 k2]

end Verif
