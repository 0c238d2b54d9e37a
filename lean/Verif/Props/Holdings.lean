import Verif.SpecHoldings
import Verif.Props.Locks
/-!
# C133: what the accounts of a SOL staker hold together
-/

namespace Verif.Props

open Verif Verif.Witness

variable {env : Env} {w : World} {ck a : Key} {J : List Line} {B B' : Book} {L : List Key}

private theorem replay_append {J1 J2 : List Line} (h : B.replay (J1 ++ J2) = some B') :
    ∃ C, B.replay J1 = some C ∧ C.replay J2 = some B' := by
  induction J1 generalizing B with
  | nil => exact ⟨B, rfl, h⟩
  | cons x xs ih =>
    simp only [List.cons_append, Book.replay, Option.bind_eq_bind, Option.bind_eq_some_iff] at h
    obtain ⟨D, hD, h⟩ := h
    obtain ⟨C, h1, h2⟩ := ih h
    exact ⟨C, by simp only [Book.replay, hD, Option.bind_eq_bind, Option.bind_some, h1], h2⟩

private theorem final_owner {l : Line} {J1 J2 : List Line} (j : Journal env ck w (J1 ++ l :: J2)) {C : Book}
    (h : C.replay (l :: J2) = some (bookOf w ck)) {x : Key} {e : Entry} (he : C.entry (.solStakerPda x ck) = some e) :
    ∃ d, stakeAt w (.solStakerPda x ck) = some d ∧ d.authority = e.owner := by
  obtain ⟨e', h1, h2⟩ := replay_owner h he fun y hy o ho =>
    sol_keeps_owner j y (List.mem_append_right _ hy) _ o ho ⟨x, rfl⟩
  have hb : belongs (.solStakerPda x ck) ck := by simp [belongs]
  simp only [bookOf, if_pos hb, Option.map_eq_some_iff] at h1
  obtain ⟨d, hd, rfl⟩ := h1
  exact ⟨d, hd, h2⟩

private theorem move_within (j : Journal env ck w J) (hL : AccountsOf w ck a L) {l : Line} (hl : l ∈ J) {k k' : Key} {n : Nat}
    (hop : l.op = .move k k' n) : k ∈ L ↔ k' ∈ L := by
  obtain ⟨⟨x, rfl⟩, y, rfl⟩ := moves_between_sol_stakers j l hl k k' n hop
  obtain ⟨J1, J2, rfl⟩ := List.append_of_mem hl
  obtain ⟨C, _, h⟩ := replay_append (C129_journal_gives_book j)
  have h' := h
  simp only [Book.replay, Option.bind_eq_bind, Option.bind_eq_some_iff] at h'
  obtain ⟨D, hD, _⟩ := h'
  rw [hop] at hD
  simp only [Book.apply, Option.bind_eq_bind, Option.bind_eq_some_iff] at hD
  obtain ⟨e, he, f, hf, hD⟩ := hD
  split_ifs at hD with hg
  obtain ⟨d, hd, e1⟩ := final_owner j h he
  obtain ⟨d', hd', e2⟩ := final_owner j h hf
  rw [hL.2, hL.2, hd, hd']
  simp only [Key.solStakerPda.injEq, and_true, exists_eq', true_and, Option.some.injEq, exists_eq_left']
  rw [e1, e2, hg.2.1]

private theorem sum_one (hL : L.Nodup) (k : Key) (n : Nat) : (L.map fun x => if k = x then n else 0).sum = if k ∈ L then n else 0 := by
  induction L with
  | nil => simp
  | cons x xs ih =>
    rw [List.nodup_cons] at hL
    rw [List.map_cons, List.sum_cons, ih hL.2]
    by_cases h : k = x
    · subst h; simp [hL.1]
    · simp [h]

private theorem sum_zero : (L.map fun _ => 0).sum = 0 := by simp

private theorem sum_add_map (f g : Key → Nat) : (L.map fun x => f x + g x).sum = (L.map f).sum + (L.map g).sum := by
  induction L with
  | nil => rfl
  | cons x xs ih => simp only [List.map_cons, List.sum_cons, ih]; omega

/-- Moves add as much to one side as to the other. -/
private theorem line_sums (hL : L.Nodup) {op : Book.Op} (hm : ∀ k k' n, op = .move k k' n → (k ∈ L ↔ k' ∈ L)) :
    ∃ m, (L.map fun k => op.into k).sum = op.depositsIn L + m ∧ (L.map fun k => op.outOf k).sum = op.withdrawsFrom L + m ∧
      (L.map fun k => op.slashes k).sum = op.slashesIn L := by
  cases op with
  | move k k' n =>
    refine ⟨if k ∈ L then n else 0, ?_, ?_, sum_zero⟩
    · have := sum_one hL k' n
      simp only [Book.Op.into, Book.Op.depositsIn, Nat.zero_add, this, hm k k' n rfl]
    · have := sum_one hL k n
      simp only [Book.Op.outOf, Book.Op.withdrawsFrom, Nat.zero_add, this]
  | deposit k n => exact ⟨0, sum_one hL k n, sum_zero, sum_zero⟩
  | withdraw k n => exact ⟨0, sum_zero, sum_one hL k n, sum_zero⟩
  | slash k n => exact ⟨0, sum_zero, sum_zero, sum_one hL k n⟩
  | _ => exact ⟨0, sum_zero, sum_zero, sum_zero⟩

private theorem tally_sums (hL : L.Nodup) (hm : ∀ l ∈ J, ∀ k k' n, l.op = .move k k' n → (k ∈ L ↔ k' ∈ L)) :
    ∃ m, (L.map fun k => tally J (·.into k)).sum = tally J (·.depositsIn L) + m ∧
      (L.map fun k => tally J (·.outOf k)).sum = tally J (·.withdrawsFrom L) + m ∧
      (L.map fun k => tally J (·.slashes k)).sum = tally J (·.slashesIn L) := by
  induction J with
  | nil => exact ⟨0, sum_zero, sum_zero, sum_zero⟩
  | cons l ls ih =>
    obtain ⟨m, h1, h2, h3⟩ := ih fun x hx => hm x (by simp [hx])
    obtain ⟨m', g1, g2, g3⟩ := line_sums hL (hm l (by simp))
    refine ⟨m + m', ?_, ?_, ?_⟩
    · simp only [tally, List.map_cons, List.sum_cons] at h1 ⊢
      rw [sum_add_map, h1, g1]; omega
    · simp only [tally, List.map_cons, List.sum_cons] at h2 ⊢
      rw [sum_add_map, h2, g2]; omega
    · simp only [tally, List.map_cons, List.sum_cons] at h3 ⊢
      rw [sum_add_map, h3, g3]

private theorem sum_le_map {f g : Key → Nat} (h : ∀ k ∈ L, f k ≤ g k) : (L.map f).sum ≤ (L.map g).sum := by
  induction L with
  | nil => exact Nat.le_refl _
  | cons x xs ih =>
    have h1 := h x (by simp)
    have h2 := ih fun k hk => h k (by simp [hk])
    simp only [List.map_cons, List.sum_cons]; omega

/-- **C133.** What the accounts of a SOL staker hold together and what was withdrawn from them is what was deposited in them, less at most
what slashes have asked for. Moves do not count. -/
theorem C133_together (j : Journal env ck w J) (hL : AccountsOf w ck a L) :
    holdings w L + tally J (·.withdrawsFrom L) ≤ tally J (·.depositsIn L) ∧
    tally J (·.depositsIn L) ≤ holdings w L + tally J (·.withdrawsFrom L) + tally J (·.slashesIn L) := by
  obtain ⟨m, h1, h2, h3⟩ := tally_sums hL.1 fun l hl k k' n hop => move_within j hL hl hop
  have key : ∀ k ∈ L, ((stakeAt w k).map (·.staked)).getD 0 + tally J (·.outOf k) ≤ tally J (·.into k) ∧
      tally J (·.into k) ≤ ((stakeAt w k).map (·.staked)).getD 0 + tally J (·.outOf k) + tally J (·.slashes k) := by
    intro k hk
    obtain ⟨⟨x, rfl⟩, d, hd, _⟩ := (hL.2 k).1 hk
    have := C130_accounted_for j (Or.inr ⟨x, rfl⟩) hd
    rw [hd]
    exact this
  have k1 := sum_le_map fun k hk => (key k hk).1
  have k2 := sum_le_map fun k hk => (key k hk).2
  simp only [sum_add_map] at k1 k2
  unfold holdings
  omega

/-- **C133.** If none of them was slashed it is equal. -/
theorem C133_exact (j : Journal env ck w J) (hL : AccountsOf w ck a L) (hs : tally J (·.slashesIn L) = 0) :
    holdings w L + tally J (·.withdrawsFrom L) = tally J (·.depositsIn L) := by
  have := C133_together j hL
  omega

/-- **C133.** Every withdrawal from one of these accounts, ever, was signed by the staker. -/
theorem C133_signed (j : Journal env ck w J) (hL : AccountsOf w ck a L) {l : Line} (hl : l ∈ J)
    (ho : l.op.withdrawsFrom L ≠ 0) : l.signed a = true := by
  cases hop : l.op with
  | withdraw k n =>
    rw [hop] at ho
    simp only [Book.Op.withdrawsFrom] at ho
    split_ifs at ho with hk
    · obtain ⟨⟨x, rfl⟩, d, hd, ha⟩ := (hL.2 k).1 hk
      obtain ⟨J1, J2, rfl⟩ := List.append_of_mem hl
      obtain ⟨C, _, h⟩ := replay_append (C129_journal_gives_book j)
      have h' := h
      simp only [Book.replay, Option.bind_eq_bind, Option.bind_eq_some_iff] at h'
      obtain ⟨D, hD, _⟩ := h'
      rw [hop] at hD
      simp only [Book.apply, Option.bind_eq_bind, Option.bind_eq_some_iff] at hD
      obtain ⟨t, _, e, he, hD⟩ := hD
      split_ifs at hD with hg
      obtain ⟨d', hd', e1⟩ := final_owner j h he
      rw [hd] at hd'; cases hd'
      rw [← ha, e1]; exact hg.1
    · exact absurd rfl ho
  | _ => rw [hop] at ho; exact absurd rfl ho

/-! ## The accounts of a staker can always be listed -/

private theorem step_opened {s : Key → Bool} {n : Nat} {op : Book.Op} (h : B.apply s n op = some B') {k : Key}
    (hk : B'.entry k ≠ none) : B.entry k ≠ none ∨ ∃ o, op = .openEntry k o := by
  cases op with
  | settle => cases h; exact Or.inl hk
  | create t =>
    simp only [Book.apply] at h
    split_ifs at h
    cases h; exact Or.inl hk
  | openEntry k' owner =>
    simp only [Book.apply] at h
    split_ifs at h with hg
    cases h
    by_cases e : k = k'
    · subst e; exact Or.inr ⟨owner, rfl⟩
    · simp only [Book.put, if_neg e] at hk; exact Or.inl hk
  | handOver k' owner =>
    simp only [Book.apply, Option.bind_eq_bind, Option.bind_eq_some_iff] at h
    obtain ⟨f, hf, h⟩ := h
    cases h
    by_cases e : k = k'
    · subst e; rw [hf]; simp
    · simp only [Book.put, if_neg e] at hk; exact Or.inl hk
  | deposit k' m =>
    simp only [Book.apply, Option.bind_eq_bind, Option.bind_eq_some_iff] at h
    obtain ⟨f, hf, h⟩ := h
    split_ifs at h
    cases h
    by_cases e : k = k'
    · subst e; rw [hf]; simp
    · simp only [Book.put, if_neg e] at hk; exact Or.inl hk
  | withdraw k' m =>
    simp only [Book.apply, Option.bind_eq_bind, Option.bind_eq_some_iff] at h
    obtain ⟨t, _, f, hf, h⟩ := h
    split_ifs at h
    cases h
    by_cases e : k = k'
    · subst e; rw [hf]; simp
    · simp only [Book.put, if_neg e] at hk; exact Or.inl hk
  | slash k' m =>
    simp only [Book.apply, Option.bind_eq_bind, Option.bind_eq_some_iff] at h
    obtain ⟨t, _, f, hf, h⟩ := h
    split_ifs at h
    cases h
    by_cases e : k = k'
    · subst e; rw [hf]; simp
    · simp only [Book.put, if_neg e] at hk; exact Or.inl hk
  | move k' l m =>
    simp only [Book.apply, Option.bind_eq_bind, Option.bind_eq_some_iff] at h
    obtain ⟨f, hf, g, hg, h⟩ := h
    split_ifs at h
    cases h
    by_cases e : k = l
    · subst e; rw [hg]; simp
    · by_cases e' : k = k'
      · subst e'; rw [hf]; simp
      · simp only [Book.put, if_neg e, if_neg e'] at hk; exact Or.inl hk
  | _ =>
    simp only [Book.apply, Option.bind_eq_bind, Option.bind_eq_some_iff] at h
    obtain ⟨t, _, h⟩ := h
    split_ifs at h
    cases h; exact Or.inl hk

private theorem replay_finite (h : B.replay J = some B') {M : List Key} (hM : ∀ k, B.entry k ≠ none → k ∈ M) :
    ∃ M' : List Key, ∀ k, B'.entry k ≠ none → k ∈ M' := by
  induction J generalizing B M with
  | nil => cases h; exact ⟨M, hM⟩
  | cons l ls ih =>
    simp only [Book.replay, Option.bind_eq_bind, Option.bind_eq_some_iff] at h
    obtain ⟨C, hC, h⟩ := h
    have hk := fun k => step_opened hC (k := k)
    cases hop : l.op with
    | openEntry k' o =>
      refine ih h (M := k' :: M) fun k hn => ?_
      rcases hk k hn with h | ⟨o', h⟩
      · exact List.mem_cons_of_mem _ (hM k h)
      · rw [hop] at h; cases h; simp
    | _ =>
      refine ih h (M := M) fun k hn => ?_
      rcases hk k hn with h | ⟨o', h⟩
      · exact hM k h
      · rw [hop] at h; cases h

/-- **C133.** The accounts of a SOL staker can always be listed. -/
theorem C133_listed (R : Reachable env w) (ck a : Key) : ∃ L, AccountsOf w ck a L := by
  classical
  obtain ⟨J, j⟩ := C129_there_is_a_journal R ck
  obtain ⟨M, hM⟩ := replay_finite (C129_journal_gives_book j) (M := []) (fun k h => absurd rfl h)
  refine ⟨M.dedup.filter fun k => decide ((∃ native, k = .solStakerPda native ck) ∧ ∃ d, stakeAt w k = some d ∧ d.authority = a),
    (List.nodup_dedup M).filter _, fun k => ?_⟩
  rw [List.mem_filter, List.mem_dedup, decide_eq_true_eq]
  refine ⟨fun h => h.2, fun h => ⟨hM k ?_, h⟩⟩
  obtain ⟨⟨x, rfl⟩, d, hd, _⟩ := h
  have hb : belongs (.solStakerPda x ck) ck := by simp [belongs]
  simp [bookOf, if_pos hb, hd]

/-! ## The example history

The staker deposits 500 tokens in `sol1`, moves 100 of them to `sol2` and withdraws 150 from `sol1`. -/

/-- The journal of the example history up to the withdrawal. -/
def linesTo13 : List Line :=
  [⟨ixInitConfig.ctx.signer, o1.now, .create ⟨configAuth, slashAuth, vault, 100, 5000, 10⟩⟩,
    ⟨ixInitVal1.ctx.signer, o1.now, .openEntry val1 auth1⟩, ⟨ixInitVal2.ctx.signer, o1.now, .openEntry val2 auth2⟩,
    ⟨ixInitSol1.ctx.signer, o1.now, .openEntry sol1 staker⟩, ⟨ixInitSol2.ctx.signer, o1.now, .openEntry sol2 staker⟩,
    ⟨ixStakeVal1.ctx.signer, o1.now, .deposit val1 2000⟩, ⟨ixStakeSol1.ctx.signer, o1.now, .deposit sol1 500⟩,
    ⟨ixHarvestHolder.ctx.signer, o1.now, .settle⟩, ⟨ixHarvestVal1.ctx.signer, o1.now, .settle⟩,
    ⟨ixHarvestSol1.ctx.signer, o2.now, .settle⟩, ⟨ixMove.ctx.signer, o2.now, .move sol1 sol2 100⟩,
    ⟨ixUnstake.ctx.signer, o2.now, .withdraw sol1 150⟩]

theorem journal13 : Journal Witness.env cfg w13 linesTo13 := by
  have j0 : Journal Witness.env cfg w0 [] := .genesis genesis
  have j1 := Journal.line (env := Witness.env) (ck := cfg) (w' := w1) (op := .create ⟨configAuth, slashAuth, vault, 100, 5000, 10⟩) j0 o1_ok (ok_after ok0) (by decide +kernel)
      ⟨bytes32 151, bytes32 150, Witness.hash, by decide +kernel, by decide +kernel, by decide +kernel, rfl⟩
  have j2 := Journal.line (env := Witness.env) (ck := cfg) (w' := w2) (op := .openEntry val1 auth1) j1 o1_ok (ok_after ok1) (by decide +kernel)
      (Or.inl ⟨by decide +kernel, vote1, rfl, rfl, by decide +kernel, by decide +kernel⟩)
  have j3 := Journal.line (env := Witness.env) (ck := cfg) (w' := w3) (op := .openEntry val2 auth2) j2 o1_ok (ok_after ok2) (by decide +kernel)
      (Or.inl ⟨by decide +kernel, vote2, rfl, rfl, by decide +kernel, by decide +kernel⟩)
  have j4 := Journal.line (env := Witness.env) (ck := cfg) (w' := w4) (op := .openEntry sol1 staker) j3 o1_ok (ok_after ok3) (by decide +kernel)
      (Or.inr ⟨by decide +kernel, native1, _, rfl, rfl, rfl, rfl⟩)
  have j5 := Journal.line (env := Witness.env) (ck := cfg) (w' := w5) (op := .openEntry sol2 staker) j4 o1_ok (ok_after ok4) (by decide +kernel)
      (Or.inr ⟨by decide +kernel, native2, _, rfl, rfl, rfl, rfl⟩)
  have j6 := Journal.line (env := Witness.env) (ck := cfg) (w' := w6) (op := .deposit val1 2000) j5 o1_ok (ok_after ok5) (by decide +kernel) ⟨Or.inl (by decide +kernel), rfl⟩
  have j7 := Journal.line (env := Witness.env) (ck := cfg) (w' := w7) (op := .deposit sol1 500) j6 o1_ok (ok_after ok6) (by decide +kernel) ⟨Or.inr (by decide +kernel), rfl⟩
  have j8 := Journal.ext (env := Witness.env) (ck := cfg) (w' := w8) j7 (credit_ext (reachable_inv r7).wf (of_decide_eq_true lt7))
  have j9 := Journal.line (env := Witness.env) (ck := cfg) (w' := w9) (op := .settle) j8 o1_ok (ok_after ok8) (by decide +kernel) (Or.inl (by decide +kernel))
  have j10 := Journal.line (env := Witness.env) (ck := cfg) (w' := w10) (op := .settle) j9 o1_ok (ok_after ok9) (by decide +kernel) (Or.inr (Or.inl (by decide +kernel)))
  have j11 := Journal.line (env := Witness.env) (ck := cfg) (w' := w11) (op := .settle) j10 o2_ok (ok_after ok10) (by decide +kernel) (Or.inr (Or.inr (Or.inl (by decide +kernel))))
  have j12 := Journal.line (env := Witness.env) (ck := cfg) (w' := w12) (op := .move sol1 sol2 100) j11 o2_ok (ok_after ok11) (by decide +kernel) ⟨by decide +kernel, rfl, rfl⟩
  have j13' := Journal.line (env := Witness.env) (ck := cfg) (w' := w13) (op := .withdraw sol1 150) j12 o2_ok (ok_after ok12) (by decide +kernel) ⟨by decide +kernel, rfl⟩
  exact j13'

/-- The staker has these two accounts. -/
theorem accounts13 : AccountsOf w13 cfg staker [sol1, sol2] := by
  refine ⟨by decide +kernel, fun k => ⟨fun h => ?_, fun h => ?_⟩⟩
  · have key : ∀ x, (stakeAt w13 x).map (·.authority) = some staker → ∃ d, stakeAt w13 x = some d ∧ d.authority = staker :=
      fun x h => Option.map_eq_some_iff.1 h
    simp only [List.mem_cons, List.not_mem_nil, or_false] at h
    rcases h with rfl | rfl
    · exact ⟨⟨_, rfl⟩, key _ (by decide +kernel)⟩
    · exact ⟨⟨_, rfl⟩, key _ (by decide +kernel)⟩
  · obtain ⟨⟨x, rfl⟩, d, hd, ha⟩ := h
    -- an account that exists was opened in one of the lines
    have opened : ∀ (J : List Line) (B B' : Book), B.replay J = some B' → B'.entry (.solStakerPda x cfg) ≠ none →
        B.entry (.solStakerPda x cfg) ≠ none ∨ ∃ l ∈ J, ∃ o, l.op = .openEntry (.solStakerPda x cfg) o := by
      intro J
      induction J with
      | nil => intro B B' h hn; cases h; exact Or.inl hn
      | cons l ls ih =>
        intro B B' h hn
        simp only [Book.replay, Option.bind_eq_bind, Option.bind_eq_some_iff] at h
        obtain ⟨C, hC, h⟩ := h
        rcases ih C B' h hn with h1 | ⟨y, hy, h1⟩
        · rcases step_opened hC h1 with h2 | h2
          · exact Or.inl h2
          · exact Or.inr ⟨l, by simp, h2⟩
        · exact Or.inr ⟨y, by simp [hy], h1⟩
    rcases opened _ _ _ (C129_journal_gives_book journal13) (by simp [bookOf, belongs, hd]) with h | ⟨l, hl, o, ho⟩
    · exact absurd rfl h
    · simp only [linesTo13, List.mem_cons, List.not_mem_nil, or_false] at hl
      rcases hl with rfl | rfl | rfl | rfl | rfl | rfl | rfl | rfl | rfl | rfl | rfl | rfl <;> simp_all

/-- Nothing was slashed; 500 deposited, 150 withdrawn, 350 left in the two accounts. -/
example : tally linesTo13 (·.slashesIn [sol1, sol2]) = 0 ∧ tally linesTo13 (·.depositsIn [sol1, sol2]) = 500 ∧
    tally linesTo13 (·.withdrawsFrom [sol1, sol2]) = 150 ∧ holdings w13 [sol1, sol2] = 350 := by decide +kernel

example : holdings w13 [sol1, sol2] + tally linesTo13 (·.withdrawsFrom [sol1, sol2]) = tally linesTo13 (·.depositsIn [sol1, sol2]) :=
  C133_exact journal13 accounts13 (by decide +kernel)

example : ∃ l ∈ linesTo13, l.op.withdrawsFrom [sol1, sol2] ≠ 0 ∧ l.signed staker = true := by
  refine ⟨⟨ixUnstake.ctx.signer, o2.now, .withdraw sol1 150⟩, by simp [linesTo13], by simp [Book.Op.withdrawsFrom], ?_⟩
  exact C133_signed journal13 accounts13 (by simp [linesTo13]) (by simp [Book.Op.withdrawsFrom])

end Verif.Props
