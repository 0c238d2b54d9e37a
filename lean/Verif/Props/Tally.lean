import Verif.SpecTally
import Verif.Props.Journal
/-!
# C130: every token of a stake account is accounted for
-/

namespace Verif.Props

open Verif Verif.Witness

variable {env : Env} {w : World} {ck sk : Key} {J : List Line} {B B' : Book} {e : Entry}

private def held (B : Book) (k : Key) : Nat := ((B.entry k).map (·.tokens)).getD 0

private theorem held_put {k l : Key} {e : Entry} : held (B.put k e) l = if l = k then e.tokens else held B l := by
  unfold held Book.put
  dsimp only
  split_ifs <;> rfl

private theorem held_some {k : Key} (h : B.entry k = some e) : held B k = e.tokens := by unfold held; rw [h]; rfl

private theorem step_tally {s : Key → Bool} {n : Nat} {op : Book.Op} (h : B.apply s n op = some B') (k : Key) :
    held B' k + op.outOf k ≤ held B k + op.into k ∧ held B k + op.into k ≤ held B' k + op.outOf k + op.slashes k := by
  cases op with
  | settle => cases h; simp [Book.Op.outOf, Book.Op.into]
  | create t =>
    simp only [Book.apply] at h
    split_ifs at h
    cases h; simp [Book.Op.outOf, Book.Op.into, held]
  | openEntry k' owner =>
    simp only [Book.apply] at h
    split_ifs at h with hg
    cases h
    have : held B k' = 0 := by unfold held; rw [hg.2]; rfl
    simp only [Book.Op.outOf, Book.Op.into, Book.Op.slashes, held_put]
    split_ifs with e
    · subst e; omega
    · omega
  | handOver k' owner =>
    simp only [Book.apply, Option.bind_eq_bind, Option.bind_eq_some_iff] at h
    obtain ⟨e, he, h⟩ := h
    cases h
    have := held_some he
    simp only [Book.Op.outOf, Book.Op.into, Book.Op.slashes, held_put]
    split_ifs with e
    · subst e; omega
    · omega
  | deposit k' m =>
    simp only [Book.apply, Option.bind_eq_bind, Option.bind_eq_some_iff] at h
    obtain ⟨e, he, h⟩ := h
    split_ifs at h
    cases h
    have := held_some he
    simp only [Book.Op.outOf, Book.Op.into, Book.Op.slashes, held_put, eq_comm (a := k')]
    split_ifs with e
    · subst e; omega
    · omega
  | withdraw k' m =>
    simp only [Book.apply, Option.bind_eq_bind, Option.bind_eq_some_iff] at h
    obtain ⟨t, _, e, he, h⟩ := h
    split_ifs at h with hg
    cases h
    have := held_some he
    simp only [Book.Op.outOf, Book.Op.into, Book.Op.slashes, held_put, eq_comm (a := k')]
    split_ifs with e
    · subst e; omega
    · omega
  | slash k' m =>
    simp only [Book.apply, Option.bind_eq_bind, Option.bind_eq_some_iff] at h
    obtain ⟨t, _, e, he, h⟩ := h
    split_ifs at h with hg
    cases h
    have := held_some he
    simp only [Book.Op.outOf, Book.Op.into, Book.Op.slashes, held_put, eq_comm (a := k')]
    split_ifs with e
    · subst e; omega
    · omega
  | move k' l m =>
    simp only [Book.apply, Option.bind_eq_bind, Option.bind_eq_some_iff] at h
    obtain ⟨e, he, f, hf, h⟩ := h
    split_ifs at h with hg
    cases h
    have h1 := held_some he
    have h2 := held_some hf
    simp only [Book.Op.outOf, Book.Op.into, Book.Op.slashes, held_put, eq_comm (a := k'), eq_comm (a := l)]
    split_ifs with e1 e2 e2
    · exact absurd (e2.symm.trans e1) hg.1
    · subst e1; omega
    · subst e2; omega
    · omega
  | _ =>
    simp only [Book.apply, Option.bind_eq_bind, Option.bind_eq_some_iff] at h
    obtain ⟨t, _, h⟩ := h
    split_ifs at h
    cases h; simp [Book.Op.outOf, Book.Op.into, held]

private theorem replay_tally (h : B.replay J = some B') (k : Key) :
    held B' k + tally J (·.outOf k) ≤ held B k + tally J (·.into k) ∧
    held B k + tally J (·.into k) ≤ held B' k + tally J (·.outOf k) + tally J (·.slashes k) := by
  induction J generalizing B with
  | nil => cases h; simp [tally]
  | cons l ls ih =>
    simp only [Book.replay, Option.bind_eq_bind, Option.bind_eq_some_iff] at h
    obtain ⟨C, hC, h⟩ := h
    have h1 := step_tally hC k
    have h2 := ih h
    simp only [tally, List.map_cons, List.sum_cons] at h2 ⊢
    omega

private theorem held_book {d : Delegation} (h : stakeAt w sk = some d) (hb : belongs sk ck) : held (bookOf w ck) sk = d.staked := by
  unfold held bookOf
  simp only [if_pos hb, h, Option.map_some, Option.getD_some]

/-- **C130.** What a stake account holds and what has been withdrawn and moved from it never exceeds what has been deposited and moved
to it; and it falls short by no more than what slashes have asked for. -/
theorem C130_accounted_for (j : Journal env ck w J) (hb : belongs sk ck) {d : Delegation} (hd : stakeAt w sk = some d) :
    d.staked + tally J (·.outOf sk) ≤ tally J (·.into sk) ∧
    tally J (·.into sk) ≤ d.staked + tally J (·.outOf sk) + tally J (·.slashes sk) := by
  have h := replay_tally (C129_journal_gives_book j) sk
  rw [held_book hd hb] at h
  have : held Book.empty sk = 0 := rfl
  omega

/-- **C130.** A stake account that has not been slashed holds exactly what was put in and not taken out. -/
theorem C130_exact (j : Journal env ck w J) (hb : belongs sk ck) {d : Delegation} (hd : stakeAt w sk = some d)
    (hs : tally J (·.slashes sk) = 0) : d.staked + tally J (·.outOf sk) = tally J (·.into sk) := by
  have := C130_accounted_for j hb hd
  omega

/-! ## An owner who never signs -/

theorem step_owner {s : Key → Bool} {n : Nat} {op : Book.Op} (h : B.apply s n op = some B') {k : Key} {e : Entry}
    (he : B.entry k = some e) (hn : ∀ o, op ≠ .handOver k o) : ∃ e', B'.entry k = some e' ∧ e'.owner = e.owner := by
  cases op with
  | settle => cases h; exact ⟨e, he, rfl⟩
  | create t =>
    simp only [Book.apply] at h
    split_ifs at h
    cases h; exact ⟨e, he, rfl⟩
  | openEntry k' owner =>
    simp only [Book.apply] at h
    split_ifs at h with hg
    cases h
    have : k ≠ k' := by rintro rfl; rw [hg.2] at he; simp at he
    exact ⟨e, by simp [Book.put, this, he], rfl⟩
  | handOver k' owner =>
    simp only [Book.apply, Option.bind_eq_bind, Option.bind_eq_some_iff] at h
    obtain ⟨f, hf, h⟩ := h
    cases h
    have : k ≠ k' := by rintro rfl; exact hn owner rfl
    exact ⟨e, by simp [Book.put, this, he], rfl⟩
  | deposit k' m =>
    simp only [Book.apply, Option.bind_eq_bind, Option.bind_eq_some_iff] at h
    obtain ⟨f, hf, h⟩ := h
    split_ifs at h
    cases h
    by_cases hk : k = k'
    · subst hk; rw [he] at hf; cases hf; exact ⟨_, if_pos rfl, rfl⟩
    · exact ⟨e, by simp [Book.put, hk, he], rfl⟩
  | withdraw k' m =>
    simp only [Book.apply, Option.bind_eq_bind, Option.bind_eq_some_iff] at h
    obtain ⟨t, _, f, hf, h⟩ := h
    split_ifs at h
    cases h
    by_cases hk : k = k'
    · subst hk; rw [he] at hf; cases hf; exact ⟨_, if_pos rfl, rfl⟩
    · exact ⟨e, by simp [Book.put, hk, he], rfl⟩
  | slash k' m =>
    simp only [Book.apply, Option.bind_eq_bind, Option.bind_eq_some_iff] at h
    obtain ⟨t, _, f, hf, h⟩ := h
    split_ifs at h
    cases h
    by_cases hk : k = k'
    · subst hk; rw [he] at hf; cases hf; exact ⟨_, if_pos rfl, rfl⟩
    · exact ⟨e, by simp [Book.put, hk, he], rfl⟩
  | move k' l m =>
    simp only [Book.apply, Option.bind_eq_bind, Option.bind_eq_some_iff] at h
    obtain ⟨f, hf, g, hg, h⟩ := h
    split_ifs at h
    cases h
    by_cases hl : k = l
    · subst hl; rw [he] at hg; cases hg; exact ⟨_, if_pos rfl, rfl⟩
    · by_cases hk : k = k'
      · subst hk; rw [he] at hf; cases hf; exact ⟨_, (if_neg hl).trans (if_pos rfl), rfl⟩
      · exact ⟨e, by simp [Book.put, hk, hl, he], rfl⟩
  | _ =>
    simp only [Book.apply, Option.bind_eq_bind, Option.bind_eq_some_iff] at h
    obtain ⟨t, _, h⟩ := h
    split_ifs at h
    cases h; exact ⟨e, he, rfl⟩

theorem replay_owner (h : B.replay J = some B') {k : Key} {e : Entry} (he : B.entry k = some e)
    (hn : ∀ l ∈ J, ∀ o, l.op ≠ .handOver k o) : ∃ e', B'.entry k = some e' ∧ e'.owner = e.owner := by
  induction J generalizing B e with
  | nil => cases h; exact ⟨e, he, rfl⟩
  | cons l ls ih =>
    simp only [Book.replay, Option.bind_eq_bind, Option.bind_eq_some_iff] at h
    obtain ⟨C, hC, h⟩ := h
    obtain ⟨e1, h1, h2⟩ := step_owner hC he (hn l (by simp))
    obtain ⟨e3, h3, h4⟩ := ih h h1 fun x hx => hn x (by simp [hx])
    exact ⟨e3, h3, h4.trans h2⟩

private theorem step_out {s : Key → Bool} {n : Nat} {op : Book.Op} (h : B.apply s n op = some B') {k : Key}
    (ho : op.outOf k ≠ 0) : ∃ e, B.entry k = some e ∧ s e.owner = true := by
  cases op with
  | withdraw k' m =>
    simp only [Book.apply, Option.bind_eq_bind, Option.bind_eq_some_iff] at h
    obtain ⟨t, _, f, hf, h⟩ := h
    split_ifs at h with hg
    simp only [Book.Op.outOf] at ho
    split_ifs at ho with e
    · subst e; exact ⟨f, hf, hg.1⟩
    · exact absurd rfl ho
  | move k' l m =>
    simp only [Book.apply, Option.bind_eq_bind, Option.bind_eq_some_iff] at h
    obtain ⟨f, hf, g, hg, h⟩ := h
    split_ifs at h with hh
    simp only [Book.Op.outOf] at ho
    split_ifs at ho with e
    · subst e; exact ⟨f, hf, hh.2.2.1⟩
    · exact absurd rfl ho
  | _ => exact absurd rfl ho

private theorem replay_out (h : B.replay J = some B') {k : Key} {e : Entry} (he : B'.entry k = some e)
    (hn : ∀ l ∈ J, ∀ o, l.op ≠ .handOver k o) (hs : ∀ l ∈ J, l.signed e.owner = false) : tally J (·.outOf k) = 0 := by
  induction J generalizing B with
  | nil => rfl
  | cons l ls ih =>
    simp only [Book.replay, Option.bind_eq_bind, Option.bind_eq_some_iff] at h
    obtain ⟨C, hC, h⟩ := h
    have h1 := ih h (fun x hx => hn x (by simp [hx])) fun x hx => hs x (by simp [hx])
    have h2 : l.op.outOf k = 0 := by
      by_contra ho
      obtain ⟨f, hf, hsig⟩ := step_out hC ho
      obtain ⟨g, hg, eg⟩ := step_owner hC hf (hn l (by simp))
      obtain ⟨e', he', ee⟩ := replay_owner h hg fun x hx => hn x (by simp [hx])
      rw [he] at he'; cases he'
      rw [← eg, ← ee, hs l (by simp)] at hsig
      simp at hsig
    simp only [tally, List.map_cons, List.sum_cons] at h1 ⊢
    omega

private theorem handed_over (j : Journal env ck w J) : ∀ l ∈ J, ∀ k o, l.op = .handOver k o → ∃ vote, k = .validatorPda vote ck := by
  induction j with
  | genesis _ => simp
  | ext _ _ ih => exact ih
  | elsewhere _ _ _ _ ih => exact ih
  | line _ _ _ _ ha ih =>
    intro l hl k o he
    rw [List.mem_append, List.mem_singleton] at hl
    rcases hl with hl | rfl
    · exact ih l hl k o he
    · dsimp only at he
      rw [he] at ha
      obtain ⟨_, vote, _, h, _⟩ := ha
      exact ⟨vote, h⟩

/-- **C130.** A SOL staker who has signed none of the instructions on the config has lost nothing but what slashes have asked for, whoever
else has signed what. -/
theorem C130_unsigned (j : Journal env ck w J) {native : Key} {s : SolStakerStake}
    (hs : solStakerAt w (.solStakerPda native ck) = some s) (hn : ∀ l ∈ J, l.signed s.del.authority = false) :
    tally J (·.into (.solStakerPda native ck)) ≤ s.del.staked + tally J (·.slashes (.solStakerPda native ck)) := by
  have hb : belongs (.solStakerPda native ck) ck := by simp [belongs]
  have hd := stakeAt_of_solStaker hs
  have h1 := (C130_accounted_for j hb hd).2
  have h2 : tally J (·.outOf (.solStakerPda native ck)) = 0 := by
    refine replay_out (C129_journal_gives_book j) (e := ⟨s.del.authority, s.del.staked, s.del.cooldown⟩) ?_ ?_ hn
    · simp only [bookOf, if_pos hb, hd, Option.map_some]
    · intro l hl o he
      obtain ⟨vote, hv⟩ := handed_over j l hl _ _ he
      simp at hv
  omega

theorem replay_split {J1 J2 : List Line} {l : Line} (h : B.replay (J1 ++ l :: J2) = some B') :
    ∃ C C', B.replay J1 = some C ∧ C.apply l.signed l.now l.op = some C' := by
  induction J1 generalizing B with
  | nil =>
    simp only [List.nil_append, Book.replay, Option.bind_eq_bind, Option.bind_eq_some_iff] at h
    obtain ⟨C, hC, _⟩ := h
    exact ⟨B, C, rfl, hC⟩
  | cons x xs ih =>
    simp only [List.cons_append, Book.replay, Option.bind_eq_bind, Option.bind_eq_some_iff] at h
    obtain ⟨D, hD, h⟩ := h
    obtain ⟨C, C', h1, h2⟩ := ih h
    exact ⟨C, C', by simp only [Book.replay, hD, Option.bind_eq_bind, Option.bind_some, h1], h2⟩

/-- **C130.** Every withdrawal and every move from a stake account was signed by its owner at that moment. -/
theorem C130_out_is_signed {J1 J2 : List Line} {l : Line} (j : Journal env ck w (J1 ++ l :: J2)) (ho : l.op.outOf sk ≠ 0) :
    ∃ B e, Book.empty.replay J1 = some B ∧ B.entry sk = some e ∧ l.signed e.owner = true := by
  obtain ⟨C, C', h1, h2⟩ := replay_split (C129_journal_gives_book j)
  obtain ⟨e, he, hs⟩ := step_out h2 ho
  exact ⟨C, e, h1, he, hs⟩

/-- **C130.** Every slash was signed by the slash authority of the config at that moment. -/
theorem C130_slash_is_signed {J1 J2 : List Line} {l : Line} (j : Journal env ck w (J1 ++ l :: J2)) (ho : l.op.slashes sk ≠ 0) :
    ∃ B t, Book.empty.replay J1 = some B ∧ B.terms = some t ∧ t.slashAuthority ≠ .default ∧ l.signed t.slashAuthority = true := by
  obtain ⟨C, C', h1, h2⟩ := replay_split (C129_journal_gives_book j)
  cases hop : l.op with
  | slash k n =>
    rw [hop] at h2
    simp only [Book.apply, Option.bind_eq_bind, Option.bind_eq_some_iff] at h2
    obtain ⟨t, ht, _, _, h2⟩ := h2
    split_ifs at h2 with hg
    exact ⟨C, t, h1, ht, hg.1, hg.2.1⟩
  | _ => rw [hop] at ho; exact absurd rfl ho

/-! The first lines of the example history put 500 tokens into the account of the SOL staker and take none out. -/

example : tally firstLines (·.into sol1) = 500 ∧ tally firstLines (·.outOf sol1) = 0 ∧ tally firstLines (·.slashes sol1) = 0 ∧
    (∀ l ∈ firstLines, l.signed staker = false) ∧ (stakeAt w7 sol1).map (·.staked) = some 500 := by
  decide +kernel

example : ∃ J d, Journal Witness.env cfg w21 J ∧ stakeAt w21 sol1 = some d ∧ 0 < d.staked ∧
    d.staked + tally J (·.outOf sol1) ≤ tally J (·.into sol1) := by
  obtain ⟨J, j⟩ := C129_there_is_a_journal r21 cfg
  have h : (stakeAt w21 sol1).any (fun d => decide (0 < d.staked)) = true := by decide +kernel
  cases hd : stakeAt w21 sol1 with
  | none => rw [hd] at h; simp at h
  | some d =>
    rw [hd] at h
    exact ⟨J, d, j, rfl, by simpa using h, (C130_accounted_for j (Or.inr ⟨_, rfl⟩) hd).1⟩

/-- A withdrawal of 150 tokens, and later a slash of 300. -/
example : ∃ J l, Journal Witness.env cfg w13 (J ++ l :: []) ∧ l.op.outOf sol1 = 150 := by
  obtain ⟨J, j⟩ := C129_there_is_a_journal r12 cfg
  refine ⟨J, ⟨ixUnstake.ctx.signer, o2.now, .withdraw sol1 150⟩, ?_, by simp [Book.Op.outOf]⟩
  have h : exec Witness.env o2 w12 ixUnstake = .ok w13 := by unfold w13; exact ok_after ok12
  exact .line j o2_ok h (by decide +kernel) ⟨by decide +kernel, rfl⟩

example : ∃ J l, Journal Witness.env cfg w15 (J ++ l :: []) ∧ l.op.slashes val1 = 300 := by
  obtain ⟨J, j⟩ := C129_there_is_a_journal r14 cfg
  refine ⟨J, ⟨ixSlashVal1.ctx.signer, o2.now, .slash val1 300⟩, ?_, by simp [Book.Op.slashes]⟩
  have h : exec Witness.env o2 w14 ixSlashVal1 = .ok w15 := by unfold w15; exact ok_after ok14
  exact .line j o2_ok h (by decide +kernel) ⟨Or.inl (by decide +kernel), rfl⟩

end Verif.Props
