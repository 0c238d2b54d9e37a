import Verif.SpecPrivilege
import Verif.Props.Signature
import Verif.Props.Client
/-!
# C115: the runtime lets the calls of a client's instruction through
-/

namespace Verif.Props

open Verif Verif.Client Verif.Witness

variable {env : Env} {o : Oracle} {w w' : World} {c : Call} {payer : Key}

theorem Trace.signed {ctx : Ctx} {ms : List Made} (T : Trace o ctx w ms w') : ∀ m ∈ ms, m.signed ctx = true := by
  induction T with
  | done => simp
  | call _ h _ ih =>
    intro m hm
    rcases List.mem_cons.1 hm with rfl | hm
    · unfold Made.perform at h
      by_contra hs
      rw [if_neg hs] at h
      cases h
    · exact ih m hm

set_option linter.unusedSimpArgs false in
/-- **C115.** When the program accepts an instruction built by the client, with the system, token and rewards programs in the places named
after them, the runtime has no objection to any of its calls: the called program is there, everything handed on is among the
accounts, what is to be written is writable, and what has to sign has signed. -/
theorem C115_calls_permitted (R : Reachable env w) (hT : c.Typed) (hS : c.Standard)
    (h : exec env o w (c.request.ix payer) = .ok w') :
    ∃ ck ms, (c.request.ix payer).acct 0 = some ck ∧ Calls env w (c.request.ix payer) ck c.meaning ms ∧
      Trace o (c.request.ix payer).ctx w ms w' ∧ ∀ m ∈ ms, m.Permitted (c.request.ix payer).ctx := by
  obtain ⟨i, ck, ms, hi, hk, C, T, hm⟩ := C112_calls R h
  obtain rfl : i = c.meaning := Option.some.inj (hi.symm.trans (C64_client_decodes hT))
  refine ⟨ck, ms, hk, C, T, fun m hmm => ?_⟩
  suffices m.program ∈ (c.request.ix payer).ctx.accts ∧ ∀ k ∈ m.op.writes, (c.request.ix payer).ctx.writable k = true from
    ⟨this.1, hm m hmm, this.2, Trace.signed T m hmm⟩
  clear T h hi hm
  cases c <;> simp only [Calls, Call.meaning, Call.Standard] at C hS
  case initializeConfig a x =>
    obtain ⟨h2, rfl⟩ := C
    obtain rfl := List.mem_singleton.1 hmm
    simp only [Ix.acct, Request.ix, Call.request, Call.metas, List.map_cons, List.getElem?_cons_succ, List.getElem?_cons_zero,
      Option.some.injEq, writes, reads, signs, signsWrites] at h2
    simp [Request.ix, Call.request, Call.metas, Op.writes, hS, h2, writes, reads, signs, signsWrites]
  case initializeValidatorStake a =>
    obtain ⟨v, _, h2, _, rfl⟩ := C
    simp only [Ix.acct, Request.ix, Call.request, Call.metas, List.map_cons, List.getElem?_cons_succ, List.getElem?_cons_zero,
      Option.some.injEq, writes, reads, signs, signsWrites] at h2
    rcases List.mem_cons.1 hmm with rfl | hmm
    · simp [Request.ix, Call.request, Call.metas, Op.writes, hS, h2, writes, reads, signs, signsWrites]
    · obtain rfl := List.mem_singleton.1 hmm
      simp [Request.ix, Call.request, Call.metas, Op.writes, hS, h2, writes, reads, signs, signsWrites]
  case initializeSolStakerStake a =>
    obtain ⟨v, y, _, _, h8, h2, _, rfl⟩ := C
    simp only [Ix.acct, Request.ix, Call.request, Call.metas, List.map_cons, List.getElem?_cons_succ, List.getElem?_cons_zero,
      Option.some.injEq, writes, reads, signs, signsWrites] at h2 h8
    rcases List.mem_cons.1 hmm with rfl | hmm
    · simp [Request.ix, Call.request, Call.metas, Op.writes, h8, writes, reads, signs, signsWrites]
    rcases List.mem_cons.1 hmm with rfl | hmm
    · simp [Request.ix, Call.request, Call.metas, Op.writes, hS, h2, writes, reads, signs, signsWrites]
    · obtain rfl := List.mem_singleton.1 hmm
      simp [Request.ix, Call.request, Call.metas, Op.writes, hS, h2, writes, reads, signs, signsWrites]
  case validatorStakeTokens a n =>
    obtain ⟨cf, s, au, mi, dec, r, _, h5, h6, h7, h8, h9, h10, ⟨f1, f2, f3, f4, f5, f6, f7⟩, rfl⟩ := C
    simp only [Ix.acct, Request.ix, Call.request, Call.metas, List.map_cons, List.getElem?_cons_succ, List.getElem?_cons_zero,
      Option.some.injEq, writes, reads, signs, signsWrites] at h5 h6 h7 h8 h9 h10 f5 f6
    rcases List.mem_cons.1 hmm with rfl | hmm
    · simp [Request.ix, Call.request, Call.metas, Op.writes, hS.1, ← h5, ← h9, writes, reads, signs, signsWrites]
    · obtain rfl := List.mem_singleton.1 hmm
      simp [Request.ix, Call.request, Call.metas, Op.writes, hS.2, ← f5, ← f6, ← h10, f1, ← h8, f3, ← h9, writes, reads, signs, signsWrites]
  case solStakerStakeTokens a n =>
    obtain ⟨cf, s, au, mi, dec, r, _, h5, h6, h7, h8, h9, h10, ⟨f1, f2, f3, f4, f5, f6, f7⟩, rfl⟩ := C
    simp only [Ix.acct, Request.ix, Call.request, Call.metas, List.map_cons, List.getElem?_cons_succ, List.getElem?_cons_zero,
      Option.some.injEq, writes, reads, signs, signsWrites] at h5 h6 h7 h8 h9 h10 f5 f6
    rcases List.mem_cons.1 hmm with rfl | hmm
    · simp [Request.ix, Call.request, Call.metas, Op.writes, hS.1, ← h5, ← h9, writes, reads, signs, signsWrites]
    · obtain rfl := List.mem_singleton.1 hmm
      simp [Request.ix, Call.request, Call.metas, Op.writes, hS.2, ← f5, ← f6, ← h10, f1, ← h8, f3, ← h9, writes, reads, signs, signsWrites]
  case unstakeTokens a n =>
    obtain ⟨cf, de, mi, dec, r, _, h5, h6, h7, h8, h9, ⟨f1, f2, f3, f4, f5, f6, f7⟩, rfl⟩ := C
    simp only [Ix.acct, Request.ix, Call.request, Call.metas, List.map_cons, List.getElem?_cons_succ, List.getElem?_cons_zero,
      Option.some.injEq, writes, reads, signs, signsWrites] at h5 h6 h7 h8 h9 f5 f6
    rcases List.mem_cons.1 hmm with rfl | hmm
    · simp [Request.ix, Call.request, Call.metas, Op.writes, hS.2, ← f5, ← f6, ← h7, f1, ← h6, f3, ← h5, writes, reads, signs, signsWrites]
    · obtain rfl := List.mem_singleton.1 hmm
      simp [Request.ix, Call.request, Call.metas, Op.writes, hS.1, ← h5, ← h9, writes, reads, signs, signsWrites]
  case harvestHolderRewards a =>
    obtain ⟨cf, r, _, h1, h2, h4, h5, h6, _, _, rfl⟩ := C
    simp only [Ix.acct, Request.ix, Call.request, Call.metas, List.map_cons, List.getElem?_cons_succ, List.getElem?_cons_zero,
      Option.some.injEq, writes, reads, signs, signsWrites] at h1 h2 h4 h5 h6
    obtain rfl := List.mem_singleton.1 hmm
    simp [Request.ix, Call.request, Call.metas, Op.writes, hS, ← h1, ← h4, ← h5, writes, reads, signs, signsWrites]
  case harvestSolStakerRewards a =>
    obtain ⟨v, y, _, _, h0, rfl⟩ := C
    simp only [Ix.acct, Request.ix, Call.request, Call.metas, List.map_cons, List.getElem?_cons_succ, List.getElem?_cons_zero,
      Option.some.injEq, writes, reads, signs, signsWrites] at h0
    obtain rfl := List.mem_singleton.1 hmm
    simp [Request.ix, Call.request, Call.metas, Op.writes, h0, writes, reads, signs, signsWrites]
  case slashValidatorStake a n =>
    obtain ⟨cf, k, d, mi, _, _, _, h4, h7, h8, ⟨_, rfl⟩ | ⟨_, dec, rfl⟩⟩ := C
    · simp at hmm
    simp only [Ix.acct, Request.ix, Call.request, Call.metas, List.map_cons, List.getElem?_cons_succ, List.getElem?_cons_zero,
      Option.some.injEq, writes, reads, signs, signsWrites] at h4 h7 h8
    obtain rfl := List.mem_singleton.1 hmm
    simp [Request.ix, Call.request, Call.metas, Op.writes, h8, ← h4, ← h7, writes, reads, signs, signsWrites]
  case slashSolStakerStake a n =>
    obtain ⟨cf, k, d, mi, _, _, _, h4, h5, h8, ⟨_, rfl⟩ | ⟨_, dec, rfl⟩⟩ := C
    · simp at hmm
    simp only [Ix.acct, Request.ix, Call.request, Call.metas, List.map_cons, List.getElem?_cons_succ, List.getElem?_cons_zero,
      Option.some.injEq, writes, reads, signs, signsWrites] at h4 h5 h8
    obtain rfl := List.mem_singleton.1 hmm
    simp [Request.ix, Call.request, Call.metas, Op.writes, h8, ← h5, ← h4, writes, reads, signs, signsWrites]
  all_goals
    subst C
    simp at hmm

/-! ## The cases are met -/

/-- The stake of 2000 tokens of the witness history, built by the client and paid for by the owner of the tokens: a transfer and a deposit. -/
example : ∃ ms : List Made, ms.length = 2 ∧ ∀ m ∈ ms, m.Permitted (stakeVal1.request.ix holderOwner).ctx := by
  have ok : okB o1 w5 (stakeVal1.request.ix holderOwner) = true := by decide +kernel
  obtain ⟨ck, ms, _, C, _, hp⟩ := C115_calls_permitted r5 stakeVal1_typed ⟨rfl, rfl⟩ (ok_after ok)
  obtain ⟨_, _, _, _, _, _, _, _, _, _, _, _, _, _, rfl⟩ := C
  exact ⟨_, rfl, hp⟩

end Verif.Props
