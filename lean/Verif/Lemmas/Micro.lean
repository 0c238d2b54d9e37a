import Verif.Lemmas.Inv
/-!
# Preservation of the invariant by the building blocks of the handlers
-/

namespace Verif

variable {env : Env} {w w' : World}

theorem effectiveIn_eq (w : World) (c s : Key) :
    effectiveIn w c s =
      if belongs s c ∧ (w s).owner = progId then (((w s).data.del?).map (·.effective)).getD 0 else 0 := by
  unfold effectiveIn
  rw [stakeAt_eq']
  by_cases h : belongs s c <;> by_cases h' : (w s).owner = progId <;> simp [h, h']

theorem effectiveIn_congr {s c : Key} (ho : (w' s).owner = (w s).owner) (hd : (w' s).data = (w s).data) :
    effectiveIn w' c s = effectiveIn w c s := by
  simp only [effectiveIn_eq, ho, hd]

theorem effectiveIn_notBelongs {s c : Key} (h : ¬ belongs s c) : effectiveIn w c s = 0 := by
  simp [effectiveIn, h]

theorem effectiveIn_some {s c : Key} {d : Delegation} (h : belongs s c) (ho : (w s).owner = progId)
    (hd : (w s).data.del? = some d) : effectiveIn w c s = d.effective := by
  rw [effectiveIn_eq]; simp [h, ho, hd]

/-! ## Other programs -/

theorem ext_config (I : Inv env w) (h : ExtStep w w') {k : Key} {c : Config} (hc : configAt w k = some c) :
    configAt w' k = some c ∧ (w k).lamports ≤ (w' k).lamports := by
  have hr := (I.config k c hc).rent
  have := env.rentMin_pos configLen
  rw [configAt_eq] at hc
  rcases (h.2 k).1 hc.1 with ⟨h1, h2, h3⟩ | ⟨h1, _⟩
  · exact ⟨configAt_eq.2 ⟨h1, by rw [h2, hc.2]⟩, h3⟩
  · omega

theorem ext_stake (I : Inv env w) (h : ExtStep w w') {k : Key} {d : Delegation} (hd : stakeAt w k = some d) :
    (w' k).owner = progId ∧ (w' k).data = (w k).data ∧ (w k).lamports ≤ (w' k).lamports := by
  have hr := I.rent k d hd
  have := env.rentMin_pos (w k).data.len
  rw [stakeAt_eq] at hd
  rcases (h.2 k).1 hd.1 with h1 | ⟨h1, _⟩
  · exact h1
  · omega

/-- After a step of other programs, an account the program owns either was owned before with the same data, or is a
fresh account with all-zero data at an ordinary address. -/
theorem ext_owned (h : ExtStep w w') {k : Key} (ho : (w' k).owner = progId) :
    ((w k).owner = progId ∧ (w' k).data = (w k).data ∧ (w k).lamports ≤ (w' k).lamports) ∨
    ((w k).owner ≠ progId ∧ k.ofProgram = false ∧ (w' k).data.zeroed) := by
  by_cases hw : (w k).owner = progId
  · rcases (h.2 k).1 hw with ⟨_, h2, h3⟩ | ⟨_, h2, _⟩
    · exact Or.inl ⟨hw, h2, h3⟩
    · rw [ho] at h2; simp at h2
  · refine Or.inr ⟨hw, ?_⟩
    obtain ⟨h1, h2⟩ := (h.2 k).2 hw
    by_cases hk : k.ofProgram = true
    · rw [(h1 hk).1] at ho; exact absurd ho hw
    · have hk : k.ofProgram = false := by simpa using hk
      exact ⟨hk, h2 hk ho⟩

theorem ext_config_iff (I : Inv env w) (h : ExtStep w w') {k : Key} {c : Config} :
    configAt w' k = some c ↔ configAt w k = some c := by
  constructor
  · intro hc
    rw [configAt_eq] at hc
    rcases ext_owned h hc.1 with ⟨h1, h2, _⟩ | ⟨_, _, n, hn⟩
    · exact configAt_eq.2 ⟨h1, by rw [← h2, hc.2]⟩
    · rw [hc.2] at hn; simp at hn
  · exact fun hc => (ext_config I h hc).1

theorem ext_stakeAt (I : Inv env w) (h : ExtStep w w') (k : Key) : stakeAt w' k = stakeAt w k := by
  cases hs : stakeAt w k with
  | some d =>
    have := ext_stake I h hs
    rw [stakeAt_eq] at hs ⊢
    exact ⟨this.1, by rw [this.2.1, hs.2]⟩
  | none =>
    cases hs' : stakeAt w' k with
    | none => rfl
    | some d =>
      rw [stakeAt_eq] at hs'
      rcases ext_owned h hs'.1 with ⟨h1, h2, _⟩ | ⟨_, _, n, hn⟩
      · rw [stakeAt_eq.2 ⟨h1, h2 ▸ hs'.2⟩] at hs; simp at hs
      · rw [hn] at hs'; simp [Data.del?] at hs'

theorem ext_inv (I : Inv env w) (h : ExtStep w w') : Inv env w' where
  wf := h.1
  shape := by
    intro k ho
    rcases ext_owned h ho with ⟨h1, h2, _⟩ | ⟨_, hk, hz⟩
    · have hs := I.shape k h1
      cases k
      case validatorPda v c =>
        obtain ⟨x, hx, hxv, hv, hc⟩ := hs
        obtain ⟨cc, hcc⟩ := Option.isSome_iff_exists.1 hc
        exact ⟨x, by rw [h2, hx], hxv, hv, Option.isSome_iff_exists.2 ⟨cc, (ext_config I h hcc).1⟩⟩
      case solStakerPda n c =>
        obtain ⟨x, hx, hxn, hc, hv⟩ := hs
        obtain ⟨cc, hcc⟩ := Option.isSome_iff_exists.1 hc
        refine ⟨x, by rw [h2, hx], hxn, Option.isSome_iff_exists.2 ⟨cc, (ext_config I h hcc).1⟩, hv.imp id ?_⟩
        intro hv
        obtain ⟨y, hy⟩ := Option.isSome_iff_exists.1 hv
        rw [validatorAt_eq] at hy
        have := ext_stake I h (stakeAt_eq.2 ⟨hy.1, by rw [hy.2]; rfl⟩)
        exact Option.isSome_iff_exists.2 ⟨y, validatorAt_eq.2 ⟨this.1, by rw [this.2.1, hy.2]⟩⟩
      case overridePda => exact hs
      all_goals
        simp only [Shape] at hs ⊢
        rw [h2]; exact hs
    · cases k
      all_goals first | exact Or.inl hz | simp [Key.ofProgram] at hk
  unowned := by
    intro k hk ho
    by_cases hw : (w k).owner = progId
    · rcases (h.2 k).1 hw with ⟨h1, _⟩ | ⟨_, h2⟩
      · exact absurd h1 ho
      · exact h2
    · obtain ⟨h1, h2, _⟩ := ((h.2 k).2 hw).1 hk
      rw [h1, h2]
      exact I.unowned k hk hw
  config := by
    intro k c hc
    rw [ext_config_iff I h] at hc
    have C := I.config k c hc
    have hl := (ext_config I h hc).2
    refine ⟨C.last_le.trans hl, C.bps, C.bump, C.rent.trans hl, C.total.congr fun s => ?_⟩
    simp only [effectiveIn, ext_stakeAt I h]
  stake := by
    intro k ho
    rcases ext_owned h ho with ⟨h1, h2, _⟩ | ⟨_, _, n, hn⟩
    · rw [h2]; exact I.stake k h1
    · rw [hn]; trivial
  rent := by
    intro k d hd
    rw [ext_stakeAt I h] at hd
    have := ext_stake I h hd
    rw [this.2.1]
    exact (I.rent k d hd).trans this.2.2

/-! ## Changes of one config and one stake account -/

theorem wf_modify (hw : w.WF) {ck sk : Key} {c' : Config} {D' : Data}
    (owner : ∀ k, (w' k).owner = (w k).owner) (hc' : (w' ck).data = .config c') (hD' : (w' sk).data = D')
    (data' : ∀ k, k ≠ ck → k ≠ sk → (w' k).data = (w k).data) (lam : ∀ k, (w' k).lamports < U64)
    (wc : c'.WF) (wD : D'.WF) : w'.WF := by
  refine ⟨fun k => ⟨lam k, ?_⟩, by rw [owner]; exact hw.2⟩
  by_cases h1 : k = ck
  · subst h1; rw [hc']; exact wc
  · by_cases h2 : k = sk
    · subst h2; rw [hD']; exact wD
    · rw [data' k h1 h2]; exact (hw.1 k).2

theorem Inv.modify (I : Inv env w) {ck sk : Key} {c c' : Config} {D D' : Data} {d d' : Delegation}
    (hcO : (w ck).owner = progId) (hc : (w ck).data = .config c) (hsO : (w sk).owner = progId)
    (hD : (w sk).data = D) (hd : D.del? = some d) (hd' : D'.del? = some d') (hbel : belongs sk ck)
    (owner : ∀ k, (w' k).owner = (w k).owner) (hc' : (w' ck).data = .config c') (hD' : (w' sk).data = D')
    (data' : ∀ k, k ≠ ck → k ≠ sk → (w' k).data = (w k).data) (ident : Ident D D')
    (vote : ∀ x, D' = .solStaker x → x.del.vote = .default ∨ (validatorAt w (.validatorPda x.del.vote ck)).isSome)
    (sok : StakeOk D') (tot : c'.effTotal + d.effective = c.effTotal + d'.effective) (bps : c'.maxBps = c.maxBps)
    (bump : c'.bump = c.bump) (last : c'.lamportsLast ≤ (w' ck).lamports)
    (rent : env.rentMin configLen ≤ (w' ck).lamports) (lam : ∀ k, k ≠ ck → (w k).lamports ≤ (w' k).lamports)
    (wf : w'.WF) : Inv env w' := by
  have hck : ck.ofProgram = false := I.config_key (configAt_eq.2 ⟨hcO, hc⟩)
  have hne : sk ≠ ck := by rintro rfl; rw [hbel.ofProgram] at hck; simp at hck
  have hsi : SameIdent w w' := by
    refine ⟨owner, fun k hk => ?_, fun k hk hk' => ?_⟩
    · by_cases h1 : k = ck
      · subst h1; rw [hc, hc']; exact .config
      · by_cases h2 : k = sk
        · subst h2; rw [hD, hD']; exact ident
        · rw [data' k h1 h2]; exact .refl
    · refine data' k ?_ ?_
      · rintro rfl; rw [hck] at hk; simp at hk
      · rintro rfl; exact hk' hsO
  refine I.preserve hsi wf ?_ ?_ ?_ ?_
  · intro n cc x ho hx
    by_cases h2 : .solStakerPda n cc = sk
    · have : cc = ck := by rw [← h2] at hbel; exact belongs_solStaker.1 hbel
      subst this
      rw [h2, hD'] at hx
      exact vote x hx
    · have h1 : Key.solStakerPda n cc ≠ ck := by rintro rfl; simp [Key.ofProgram] at hck
      rw [data' _ h1 h2] at hx
      obtain ⟨y, hy, _, _, hv⟩ := I.shape _ ho
      rw [hx] at hy; cases hy; exact hv
  · intro k cc hcc
    rw [configAt_eq, owner] at hcc
    by_cases h1 : k = ck
    · subst h1
      rw [hc'] at hcc
      cases hcc.2
      have C := I.config k c (configAt_eq.2 ⟨hcO, hc⟩)
      refine ⟨last, by rw [bps]; exact C.bps, by rw [bump]; exact C.bump, rent, ?_⟩
      refine C.total.update (a := sk) (fun s hs => ?_) ?_
      · by_cases h3 : s = k
        · subst h3
          rw [effectiveIn_notBelongs, effectiveIn_notBelongs] <;>
          · intro hb; rw [hb.ofProgram] at hck; simp at hck
        · exact effectiveIn_congr (owner s) (data' s h3 hs)
      · rw [effectiveIn_some hbel hsO (hD ▸ hd), effectiveIn_some hbel (by rw [owner]; exact hsO) (hD' ▸ hd')]
        exact tot
    · have h2 : k ≠ sk := by
        rintro rfl; rw [hD'] at hcc; rw [hcc.2] at hd'; simp [Data.del?] at hd'
      rw [data' k h1 h2] at hcc
      have C := I.config k cc (configAt_eq.2 hcc)
      refine ⟨C.last_le.trans (lam k h1), C.bps, C.bump, C.rent.trans (lam k h1), C.total.congr fun s => ?_⟩
      by_cases h3 : s = sk
      · subst h3
        have : ¬ belongs s k := fun hb => h1 (belongs_unique hb hbel)
        rw [effectiveIn_notBelongs this, effectiveIn_notBelongs this]
      · by_cases h4 : s = ck
        · subst h4
          rw [effectiveIn_notBelongs, effectiveIn_notBelongs] <;>
          · intro hb; rw [hb.ofProgram] at hck; simp at hck
        · exact effectiveIn_congr (owner s) (data' s h4 h3)
  · intro k ho
    rw [owner] at ho
    by_cases h1 : k = ck
    · subst h1; rw [hc']; trivial
    · by_cases h2 : k = sk
      · subst h2; rw [hD']; exact sok
      · rw [data' k h1 h2]; exact I.stake k ho
  · intro k hk _ _
    refine lam k ?_
    rintro rfl; rw [hck] at hk; simp at hk

/-- Changing only one config. -/
theorem Inv.modifyConfig (I : Inv env w) {ck : Key} {c c' : Config}
    (hcO : (w ck).owner = progId) (hc : (w ck).data = .config c)
    (owner : ∀ k, (w' k).owner = (w k).owner) (hc' : (w' ck).data = .config c')
    (data' : ∀ k, k ≠ ck → (w' k).data = (w k).data)
    (tot : c'.effTotal = c.effTotal) (bps : c'.maxBps ≤ maxBasisPoints)
    (bump : c'.bump = c.bump) (last : c'.lamportsLast ≤ (w' ck).lamports)
    (rent : env.rentMin configLen ≤ (w' ck).lamports)
    (lam : ∀ k, k ≠ ck → (w k).data ≠ .bytes [] → (w k).lamports ≤ (w' k).lamports)
    (wf : w'.WF) : Inv env w' := by
  have hck : ck.ofProgram = false := I.config_key (configAt_eq.2 ⟨hcO, hc⟩)
  have hsi : SameIdent w w' := by
    refine ⟨owner, fun k hk => ?_, fun k hk hk' => ?_⟩
    · by_cases h1 : k = ck
      · subst h1; rw [hc, hc']; exact .config
      · rw [data' k h1]; exact .refl
    · refine data' k ?_
      rintro rfl; rw [hck] at hk; simp at hk
  have heff : ∀ k s, effectiveIn w' k s = effectiveIn w k s := by
    intro k s
    by_cases h4 : s = ck
    · subst h4
      rw [effectiveIn_notBelongs, effectiveIn_notBelongs] <;>
      · intro hb; rw [hb.ofProgram] at hck; simp at hck
    · exact effectiveIn_congr (owner s) (data' s h4)
  refine I.preserve hsi wf ?_ ?_ ?_ ?_
  · intro n cc x ho hx
    have h1 : Key.solStakerPda n cc ≠ ck := by rintro rfl; simp [Key.ofProgram] at hck
    rw [data' _ h1] at hx
    obtain ⟨y, hy, _, _, hv⟩ := I.shape _ ho
    rw [hx] at hy; cases hy; exact hv
  · intro k cc hcc
    rw [configAt_eq, owner] at hcc
    by_cases h1 : k = ck
    · subst h1
      rw [hc'] at hcc
      cases hcc.2
      have C := I.config k c (configAt_eq.2 ⟨hcO, hc⟩)
      exact ⟨last, bps, by rw [bump]; exact C.bump, rent, by rw [tot]; exact C.total.congr (heff k)⟩
    · rw [data' k h1] at hcc
      have C := I.config k cc (configAt_eq.2 hcc)
      have hl := lam k h1 (by rw [hcc.2]; simp)
      exact ⟨C.last_le.trans hl, C.bps, C.bump, C.rent.trans hl, C.total.congr (heff k)⟩
  · intro k ho
    rw [owner] at ho
    by_cases h1 : k = ck
    · subst h1; rw [hc']; trivial
    · rw [data' k h1]; exact I.stake k ho
  · intro k hk _ hne
    refine lam k ?_ hne
    rintro rfl; rw [hck] at hk; simp at hk

/-! ## Settlement -/

theorem del?_setDel {D : Data} {d x : Delegation} (h : D.del? = some d) : (D.setDel x).del? = some x := by
  cases D <;> simp_all [Data.del?, Data.setDel]

theorem ident_setDel {D : Data} {d x : Delegation} (h : D.del? = some d) (hv : x.vote = d.vote) :
    Ident D (D.setDel x) := by
  cases D <;> simp_all [Data.del?, Data.setDel]
  · exact .validator (by subst h; exact hv)
  · exact .solStaker rfl

theorem stakeOk_setDel {D : Data} {d x : Delegation} (h : D.del? = some d) (hs : x.staked = d.staked)
    (he : x.effective = d.effective) (hok : StakeOk D) : StakeOk (D.setDel x) := by
  cases D <;> simp_all [Data.del?, Data.setDel, StakeOk]

theorem wf_setDel {D : Data} {x : Delegation} (hD : D.WF) (hx : x.WF) : (D.setDel x).WF := by
  cases D <;> simp_all [Data.setDel, Data.WF]

theorem wf_del {D : Data} {d : Delegation} (hD : D.WF) (h : D.del? = some d) : d.WF := by
  cases D <;> simp_all [Data.del?, Data.WF]

theorem accNow_lt (c : Config) (l : Nat) : accNow c l < U128 := Nat.mod_lt _ (by decide)

theorem Harvested.lamports_lt {ck hk auth va sk : Key} {keeper : Option Key} {c : Config}
    {d : Delegation} {h : HolderRewards} {rs rh : Nat}
    (H : Harvested env w w' ck hk auth va sk keeper c d h rs rh) (hw : w.WF) (k : Key) : (w' k).lamports < U64 := by
  rw [H.lamports']
  split_ifs with h1 h2 h3
  · exact H.auth_lt
  · have := (hw.1 ck).1; omega
  · exact H.keeper_lt k h3
  · exact (hw.1 k).1

theorem Harvested.lamports_mono {ck hk auth va sk : Key} {keeper : Option Key} {c : Config}
    {d : Delegation} {h : HolderRewards} {rs rh : Nat}
    (H : Harvested env w w' ck hk auth va sk keeper c d h rs rh) (k : Key) (hk' : k ≠ ck) :
    (w k).lamports ≤ (w' k).lamports := by
  rw [H.lamports']
  split_ifs with h1 h3
  · subst h1; unfold authAfterKeeper; split <;> omega
  · omega
  · exact Nat.le_refl _

theorem Harvested.config_lamports {ck hk auth va sk : Key} {keeper : Option Key} {c : Config}
    {d : Delegation} {h : HolderRewards} {rs rh : Nat}
    (H : Harvested env w w' ck hk auth va sk keeper c d h rs rh) : (w ck).lamports - (rs + rh) ≤ (w' ck).lamports := by
  rw [H.lamports']
  split_ifs with h1
  · subst h1; unfold authAfterKeeper; split <;> omega
  all_goals omega

theorem Harvested.wf {ck hk auth va sk : Key} {keeper : Option Key} {c : Config}
    {d : Delegation} {h : HolderRewards} {rs rh : Nat}
    (H : Harvested env w w' ck hk auth va sk keeper c d h rs rh) (hw : w.WF) : w'.WF := by
  have hcw : c.WF := by have := (hw.1 ck).2; rw [H.config] at this; exact this
  have hdw := wf_del (hw.1 sk).2 H.del
  have hhw : h.lastAcc < U128 := by have := (hw.1 hk).2; rw [H.holder] at this; exact this.1
  refine wf_modify hw H.owner H.config' H.stake' H.data' (H.lamports_lt hw) ?_ ?_
  · obtain ⟨h1, h2, h3, h4, h5, h6, h7⟩ := hcw
    have := (hw.1 ck).1
    exact ⟨h1, h2, h3, by simp only; omega, accNow_lt _ _, h6, h7⟩
  · obtain ⟨h1, h2, h3, h4, h5⟩ := hdw
    exact wf_setDel (hw.1 sk).2 ⟨h1, h2, h3, hhw, accNow_lt _ _⟩

theorem harvest_inv (I : Inv env w) {ck hk auth va sk : Key} {keeper : Option Key} {c : Config}
    {d : Delegation} {h : HolderRewards} {rs rh : Nat}
    (H : Harvested env w w' ck hk auth va sk keeper c d h rs rh) (hcO : (w ck).owner = progId)
    (hsO : (w sk).owner = progId) (hbel : belongs sk ck) : Inv env w' := by
  refine I.modify hcO H.config hsO rfl H.del (del?_setDel H.del) hbel H.owner H.config' H.stake' H.data'
    (ident_setDel H.del rfl) ?_ (stakeOk_setDel H.del rfl rfl (I.stake sk hsO)) rfl rfl rfl H.config_lamports ?_
    H.lamports_mono (H.wf I.wf)
  · intro x hx
    have hs := I.shape sk hsO
    rcases hbel with ⟨v, rfl⟩ | ⟨n, rfl⟩
    · obtain ⟨y, hy, _⟩ := hs
      rw [hy] at hx; simp [Data.setDel] at hx
    · obtain ⟨y, hy, _, _, hv⟩ := hs
      have hd := H.del
      rw [hy] at hx hd
      simp only [Data.setDel, Data.solStaker.injEq, Data.del?, Option.some.injEq] at hx hd
      subst hx; subst hd; exact hv
  · have := H.config_lamports
    have := H.rent
    omega

/-! ## Adjusting a stake account together with the config's effective total -/

/-- The stake account at `sk` now holds `D'`; the config's effective total follows; nothing else changes. -/
structure Adjusted (w w' : World) (ck sk : Key) (D' : Data) (c : Config) (d d' : Delegation) : Prop where
  config : (w ck).data = .config c
  del : (w sk).data.del? = some d
  del' : D'.del? = some d'
  le : d.effective ≤ c.effTotal
  lt : c.effTotal - d.effective + d'.effective < U64
  owner : ∀ k, (w' k).owner = (w k).owner
  lamports : ∀ k, (w' k).lamports = (w k).lamports
  config' : (w' ck).data = .config { c with effTotal := c.effTotal - d.effective + d'.effective }
  stake' : (w' sk).data = D'
  data' : ∀ k, k ≠ ck → k ≠ sk → (w' k).data = (w k).data

theorem adjust_inv (I : Inv env w) {ck sk : Key} {D' : Data} {c : Config} {d d' : Delegation}
    (A : Adjusted w w' ck sk D' c d d') (hcO : (w ck).owner = progId) (hsO : (w sk).owner = progId)
    (hbel : belongs sk ck) (ident : Ident (w sk).data D')
    (vote : ∀ x, D' = .solStaker x → x.del.vote = .default ∨ (validatorAt w (.validatorPda x.del.vote ck)).isSome)
    (sok : StakeOk D') (wD : D'.WF) : Inv env w' := by
  have C := I.config ck c (configAt_eq.2 ⟨hcO, A.config⟩)
  have hcw : c.WF := by have := (I.wf.1 ck).2; rw [A.config] at this; exact this
  have hle := A.le
  refine I.modify hcO A.config hsO rfl A.del A.del' hbel A.owner A.config' A.stake' A.data' ident vote sok ?_ rfl rfl
    ?_ ?_ ?_ ?_
  · simp only; omega
  · rw [A.lamports]; exact C.last_le
  · rw [A.lamports]; exact C.rent
  · intro k _; rw [A.lamports]
  · refine wf_modify I.wf A.owner A.config' A.stake' A.data' (fun k => by rw [A.lamports]; exact (I.wf.1 k).1) ?_ wD
    obtain ⟨h1, h2, h3, h4, h5, h6, h7⟩ := hcw
    exact ⟨h1, A.lt, h3, h4, h5, h6, h7⟩

/-- Writing the stake account and then synchronising its effective amount is an adjustment. -/
theorem adjusted_of_synced {ck sk : Key} {D1 : Data} {l lmin : Nat} {c : Config} {d d1 d2 : Delegation}
    (S : Synced (w.setD sk D1) w' ck sk l lmin c d2) (hne : sk ≠ ck)
    (hd : (w sk).data.del? = some d) (hd1 : D1.del? = some d1) (he : d1.effective = d.effective) :
    Adjusted w w' ck sk (D1.setDel { d1 with effective := min d1.staked (cap (max l lmin)) }) c d
      { d1 with effective := min d1.staked (cap (max l lmin)) } := by
  have h2 : d2 = d1 := by
    have := S.del; simp only [World.setD_data, if_true] at this; rw [hd1] at this; exact (Option.some.inj this).symm
  subst h2
  have hc := S.config
  simp only [World.setD_data, Ne.symm hne, if_false] at hc
  refine ⟨hc, hd, del?_setDel hd1, he ▸ S.le, he ▸ S.lt, ?_, ?_, ?_, ?_, ?_⟩
  · intro k; rw [S.owner]; simp
  · intro k; rw [S.lamports]; simp
  · rw [S.config', he]
  · rw [S.stake']; simp [World.setD_data]
  · intro k h1 h2; rw [S.data' k h1 h2]; simp [World.setD_data, h2]

end Verif
