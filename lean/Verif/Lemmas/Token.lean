import Verif.Lemmas.Micro
/-!
# Inversion of the token and system program calls
-/

namespace Verif

variable {env : Env} {w w' : World}

/-- The source token account after losing `amount` under `authority`. -/
def spend (s : TokenAccount) (authority : Key) (amount : Nat) : TokenAccount :=
  if s.delegate = some authority then
    { s with amount := s.amount - amount, delegatedAmount := s.delegatedAmount - amount
             delegate := if s.delegatedAmount - amount = 0 then none else s.delegate }
  else { s with amount := s.amount - amount }

/-- What a successful token transfer establishes. -/
structure Transferred (ctx : Ctx) (w w' : World) (source mint dest authority : Key) (signed : Bool) (amount : Nat)
    (s d : TokenAccount) : Prop where
  src : (w source).data = .token s
  dst : (w dest).data = .token d
  srcO : (w source).owner = tokenId
  dstO : (w dest).owner = tokenId
  mint_eq : s.mint = mint
  mint_eq' : d.mint = mint
  le : amount ≤ s.amount
  signed_eq : signed = true
  auth : if s.delegate = some authority then amount ≤ s.delegatedAmount else authority = s.owner
  thawed : s.frozen = false ∧ d.frozen = false
  self : source = dest → w' = w
  other : source ≠ dest → d.amount + amount < U64 ∧
    w' = (w.setD source (.token (spend s authority amount))).setD dest (.token { d with amount := d.amount + amount })

theorem tokenTransfer_ok {ctx : Ctx} {source mint dest authority : Key} {signed : Bool} {amount decimals : Nat}
    (h : tokenTransfer ctx w source mint dest authority signed amount decimals = .ok w') :
    ∃ s d, Transferred ctx w w' source mint dest authority signed amount s d := by
  simp only [tokenTransfer, bind_ok, require_ok, exists_unit, tokenData_ok, mintData_ok, ite_ok, pure_ok] at h
  obtain ⟨s, hs, d, hd, m, hm, hfr, hle, ⟨hm1, hm2, _⟩, hsig, hauth, ⟨ho1, ho2⟩, _, h⟩ := h
  refine ⟨s, d, ⟨hs, hd, ho1, ho2, hm2, hm1 ▸ hm2, hle, hsig, hauth, hfr, ?_, ?_⟩⟩
  · intro e
    rcases h with ⟨_, h⟩ | ⟨h, _⟩
    · exact h.symm
    · exact absurd e h
  · intro e
    rcases h with ⟨h, _⟩ | ⟨_, hlt, h⟩
    · exact absurd h e
    · refine ⟨hlt, h.symm.trans ?_⟩
      unfold World.setD spend
      rw [World.set_other w _ (Ne.symm e)]

theorem Transferred.owner {ctx : Ctx} {source mint dest authority : Key} {signed : Bool} {amount : Nat}
    {s d : TokenAccount} (T : Transferred ctx w w' source mint dest authority signed amount s d) (k : Key) :
    (w' k).owner = (w k).owner := by
  by_cases h : source = dest
  · rw [T.self h]
  · rw [(T.other h).2]; simp

theorem Transferred.lamports {ctx : Ctx} {source mint dest authority : Key} {signed : Bool} {amount : Nat}
    {s d : TokenAccount} (T : Transferred ctx w w' source mint dest authority signed amount s d) (k : Key) :
    (w' k).lamports = (w k).lamports := by
  by_cases h : source = dest
  · rw [T.self h]
  · rw [(T.other h).2]; simp

theorem Transferred.data_other {ctx : Ctx} {source mint dest authority : Key} {signed : Bool} {amount : Nat}
    {s d : TokenAccount} (T : Transferred ctx w w' source mint dest authority signed amount s d) {k : Key}
    (h1 : k ≠ source) (h2 : k ≠ dest) : (w' k).data = (w k).data := by
  by_cases h : source = dest
  · rw [T.self h]
  · rw [(T.other h).2]; simp [World.setD_data, h1, h2]

/-- A token program call that only changes data of token-owned accounts is a step of other programs. -/
theorem ext_of_token (I : Inv env w) (owner : ∀ k, (w' k).owner = (w k).owner)
    (lam : ∀ k, (w' k).lamports = (w k).lamports)
    (data : ∀ k, (w' k).data = (w k).data ∨ ((w k).owner = tokenId ∧ (w' k).data.WF)) : ExtStep w w' := by
  refine ⟨⟨fun k => ⟨by rw [lam]; exact (I.wf.1 k).1, ?_⟩, by rw [owner]; exact I.wf.2⟩, fun k => ⟨?_, ?_⟩⟩
  · rcases data k with h | h
    · rw [h]; exact (I.wf.1 k).2
    · exact h.2
  · intro ho
    refine Or.inl ⟨by rw [owner, ho], ?_, by rw [lam]⟩
    rcases data k with h | h
    · exact h
    · rw [ho] at h; simp at h
  · intro ho
    refine ⟨fun hk => ⟨owner k, ?_, by rw [lam]⟩, fun _ ho' => absurd (owner k ▸ ho') ho⟩
    rcases data k with h | h
    · exact h
    · rw [(I.unowned k hk ho).1] at h; simp at h

theorem spend_wf {s : TokenAccount} {a : Key} {n : Nat} (h : (Data.token s).WF) : (Data.token (spend s a n)).WF := by
  simp only [Data.WF] at h ⊢
  unfold spend
  split <;> simp only <;> omega

theorem Transferred.ext {ctx : Ctx} {source mint dest authority : Key} {signed : Bool} {amount : Nat}
    {s d : TokenAccount} (T : Transferred ctx w w' source mint dest authority signed amount s d) (I : Inv env w) :
    ExtStep w w' := by
  refine ext_of_token I T.owner T.lamports fun k => ?_
  by_cases h : source = dest
  · rw [T.self h]; exact Or.inl rfl
  · rw [(T.other h).2]
    simp only [World.setD_data]
    have hs := (I.wf.1 source).2
    have hd := (I.wf.1 dest).2
    rw [T.src] at hs; rw [T.dst] at hd
    split_ifs with h1 h2
    · subst h1; exact Or.inr ⟨T.dstO, ⟨(T.other h).1, hd.2⟩⟩
    · subst h2; exact Or.inr ⟨T.srcO, spend_wf hs⟩
    · exact Or.inl rfl

/-- What a successful burn establishes. -/
structure Burned (ctx : Ctx) (w w' : World) (account mint authority : Key) (amount : Nat)
    (s : TokenAccount) (m : Mint) : Prop where
  acct : (w account).data = .token s
  mintD : (w mint).data = .mint m
  acctO : (w account).owner = tokenId
  mintO : (w mint).owner = tokenId
  mint_eq : s.mint = mint
  le : amount ≤ s.amount
  supply : amount ≤ m.supply
  auth : if s.delegate = some authority then amount ≤ s.delegatedAmount else authority = s.owner
  thawed : s.frozen = false
  eq : w' = (w.setD account (.token (spend s authority amount))).setD mint (.mint { m with supply := m.supply - amount })

theorem tokenBurn_ok {ctx : Ctx} {account mint authority : Key} {amount decimals : Nat}
    (h : tokenBurn ctx w account mint authority amount decimals = .ok w') :
    ∃ s m, Burned ctx w w' account mint authority amount s m := by
  simp only [tokenBurn, bind_ok, require_ok, exists_unit, tokenData_ok, mintData_ok, pure_ok] at h
  obtain ⟨s, hs, m, hm, hfr, hle, ⟨hm1, _⟩, hauth, ⟨ho1, ho2⟩, _, hsup, h⟩ := h
  refine ⟨s, m, ⟨hs, hm, ho1, ho2, hm1, hle, hsup, hauth, hfr, h.symm.trans ?_⟩⟩
  have hne : mint ≠ account := by rintro rfl; rw [hs] at hm; simp at hm
  unfold World.setD spend
  rw [World.set_other w _ hne]

theorem Burned.ext {ctx : Ctx} {account mint authority : Key} {amount : Nat} {s : TokenAccount} {m : Mint}
    (B : Burned ctx w w' account mint authority amount s m) (I : Inv env w) : ExtStep w w' := by
  refine ext_of_token I (fun k => by rw [B.eq]; simp) (fun k => by rw [B.eq]; simp) fun k => ?_
  rw [B.eq]
  simp only [World.setD_data]
  have hs := (I.wf.1 account).2
  have hm := (I.wf.1 mint).2
  rw [B.acct] at hs; rw [B.mintD] at hm
  split_ifs with h1 h2
  · subst h1; refine Or.inr ⟨B.mintO, ?_⟩
    simp only [Data.WF] at hm ⊢; omega
  · subst h2; exact Or.inr ⟨B.acctO, spend_wf hs⟩
  · exact Or.inl rfl

theorem systemAllocate_ok {ctx : Ctx} {k : Key} {len : Nat} (h : systemAllocate ctx w k len = .ok w') :
    (w k).data = .bytes [] ∧ (w k).owner = systemId ∧ w' = w.setD k (.bytes (List.replicate len 0)) := by
  simp only [systemAllocate, bind_ok, require_ok, exists_unit, pure_ok, Data.isEmpty, decide_eq_true_eq] at h
  obtain ⟨⟨h1, h2⟩, _, rfl⟩ := h
  exact ⟨h1, h2, rfl⟩

theorem systemAssign_ok {ctx : Ctx} {k : Key} (h : systemAssign ctx w k = .ok w') :
    ((w k).owner = progId ∧ w' = w) ∨ ((w k).owner = systemId ∧ w' = w.setO k progId) := by
  simp only [systemAssign, bind_ok, require_ok, exists_unit, pure_ok, ite_ok] at h
  rcases h with ⟨h1, h⟩ | ⟨_, h1, _, h⟩
  · exact Or.inl ⟨h1, h.symm⟩
  · exact Or.inr ⟨h1, h.symm⟩

end Verif
