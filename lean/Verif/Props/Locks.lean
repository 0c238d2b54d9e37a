import Verif.Props.Tally
import Verif.Props.State
import Verif.Props.Unstake
import Verif.Props.Effective
/-!
# C131: where locks come from
-/

namespace Verif.Props

open Verif Verif.Witness

variable {env : Env} {w : World} {ck sk : Key} {J : List Line} {B B' : Book}

/-- The journal has a line in which `e`'s lock was set: a withdrawal signed by the owner of the entry it was made from. If `same`, that entry is
in `S`; if `P` as well, its owner is that of `e`. -/
private def LockedBy (S : Key → Prop) (P : Prop) (J : List Line) (e : Entry) (same : Prop) : Prop :=
  ∃ J1 l J2 k n B t f, J = J1 ++ l :: J2 ∧ l.op = .withdraw k n ∧ Book.empty.replay J1 = some B ∧ B.terms = some t ∧
    B.entry k = some f ∧ l.signed f.owner = true ∧ e.lockedUntil = min (l.now + t.cooldownTime) (2 ^ 64 - 1) ∧
    (same → S k ∧ (P → f.owner = e.owner))

private theorem LockedBy.later {S : Key → Prop} {P : Prop} {e e' : Entry} {p p' : Prop} (h : LockedBy S P J e p) (l : Line)
    (he : e'.lockedUntil = e.lockedUntil) (ho : p' → p ∧ (P → e'.owner = e.owner)) : LockedBy S P (J ++ [l]) e' p' := by
  obtain ⟨J1, x, J2, k, n, B, t, f, h1, h2, h3, h4, h5, h6, h7, h8⟩ := h
  exact ⟨J1, x, J2 ++ [l], k, n, B, t, f, by rw [h1]; simp, h2, h3, h4, h5, h6, he.trans h7, fun hp => by
    obtain ⟨a, b⟩ := ho hp
    obtain ⟨c, d⟩ := h8 a
    exact ⟨c, fun hP => (d hP).trans (b hP).symm⟩⟩

private theorem replay_snoc {l : Line} (h : B.replay (J ++ [l]) = some B') :
    ∃ C, B.replay J = some C ∧ C.apply l.signed l.now l.op = some B' := by
  induction J generalizing B with
  | nil =>
    simp only [List.nil_append, Book.replay, Option.bind_eq_bind, Option.bind_eq_some_iff, Option.some.injEq] at h
    obtain ⟨C, hC, rfl⟩ := h
    exact ⟨B, rfl, hC⟩
  | cons x xs ih =>
    simp only [List.cons_append, Book.replay, Option.bind_eq_bind, Option.bind_eq_some_iff] at h
    obtain ⟨D, hD, h⟩ := h
    obtain ⟨C, h1, h2⟩ := ih h
    exact ⟨C, by simp only [Book.replay, hD, Option.bind_eq_bind, Option.bind_some, h1], h2⟩

private theorem lock_origin {S : Key → Prop} {P : Prop} (h : Book.empty.replay J = some B)
    (hm : ∀ l ∈ J, ∀ k k' n, l.op = .move k k' n → S k' → S k) (hh : P → ∀ l ∈ J, ∀ k o, l.op = .handOver k o → ¬ S k) :
    ∀ k e, B.entry k = some e → e.lockedUntil = 0 ∨ LockedBy S P J e (S k) := by
  induction J using List.reverseRecOn generalizing B with
  | nil => cases h; intro k e he; simp [Book.empty] at he
  | append_singleton J l ih =>
    obtain ⟨C, hC, hB⟩ := replay_snoc h
    have IH := ih hC (fun x hx => hm x (by simp [hx])) fun hP x hx => hh hP x (by simp [hx])
    have keep : ∀ k e, C.entry k = some e → e.lockedUntil = 0 ∨ LockedBy S P (J ++ [l]) e (S k) := fun k e he =>
      (IH k e he).imp id fun h => h.later l rfl fun h => ⟨h, fun _ => rfl⟩
    -- one entry written, with the lock and the owner it had
    have one : ∀ k (f : Entry) (g : Entry), C.entry k = some f → g.lockedUntil = f.lockedUntil → g.owner = f.owner → B = C.put k g →
        ∀ k' e, B.entry k' = some e → e.lockedUntil = 0 ∨ LockedBy S P (J ++ [l]) e (S k') := by
      intro k f g hf hg ho hB k' e he
      rw [hB] at he
      simp only [Book.put] at he
      split_ifs at he with hk
      · cases he
        subst hk
        rcases IH k' f hf with h | h
        · exact Or.inl (hg.trans h)
        · exact Or.inr (h.later l hg fun hs => ⟨hs, fun _ => ho⟩)
      · exact keep k' e he
    have hl : l ∈ J ++ [l] := by simp
    cases hop : l.op with
    | settle => rw [hop] at hB; cases hB; exact keep
    | create t =>
      rw [hop] at hB
      simp only [Book.apply] at hB
      split_ifs at hB
      cases hB; exact keep
    | openEntry k owner =>
      rw [hop] at hB
      simp only [Book.apply] at hB
      split_ifs at hB with hg
      cases hB
      intro k' e he
      simp only [Book.put] at he
      split_ifs at he with hk
      · cases he; exact Or.inl rfl
      · exact keep k' e he
    | handOver k owner =>
      rw [hop] at hB
      simp only [Book.apply, Option.bind_eq_bind, Option.bind_eq_some_iff] at hB
      obtain ⟨f, hf, hB⟩ := hB
      cases hB
      intro k' e he
      simp only [Book.put] at he
      split_ifs at he with hk
      · cases he
        subst hk
        rcases IH k' f hf with h | h
        · exact Or.inl h
        · exact Or.inr (h.later l rfl fun hs => ⟨hs, fun hP => absurd hs (hh hP l hl _ _ hop)⟩)
      · exact keep k' e he
    | deposit k n =>
      rw [hop] at hB
      simp only [Book.apply, Option.bind_eq_bind, Option.bind_eq_some_iff] at hB
      obtain ⟨f, hf, hB⟩ := hB
      split_ifs at hB
      exact one k f _ hf (by rfl) (by rfl) (Option.some.inj hB).symm
    | withdraw k n =>
      have hB' := hB
      rw [hop] at hB'
      simp only [Book.apply, Option.bind_eq_bind, Option.bind_eq_some_iff] at hB'
      obtain ⟨t, ht, f, hf, hB'⟩ := hB'
      split_ifs at hB' with hg
      cases hB'
      intro k' e he
      simp only [Book.put] at he
      split_ifs at he with hk
      · cases he
        subst hk
        exact Or.inr ⟨J, l, [], k', n, C, t, f, rfl, hop, hC, ht, hf, hg.1, rfl, fun hs => ⟨hs, fun _ => rfl⟩⟩
      · exact keep k' e he
    | slash k n =>
      rw [hop] at hB
      simp only [Book.apply, Option.bind_eq_bind, Option.bind_eq_some_iff] at hB
      obtain ⟨t, _, f, hf, hB⟩ := hB
      split_ifs at hB
      exact one k f _ hf (by rfl) (by rfl) (Option.some.inj hB).symm
    | move k m n =>
      have hm' := hm l hl k m n hop
      rw [hop] at hB
      simp only [Book.apply, Option.bind_eq_bind, Option.bind_eq_some_iff] at hB
      obtain ⟨f, hf, g, hg, hB⟩ := hB
      split_ifs at hB with hc
      cases hB
      intro k' e he
      simp only [Book.put] at he
      split_ifs at he with h1 h2
      · cases he
        subst h1
        dsimp only
        rcases le_total f.lockedUntil g.lockedUntil with hle | hle
        · rw [max_eq_right hle]
          rcases IH k' g hg with h | h
          · exact Or.inl h
          · exact Or.inr (h.later l rfl fun hs => ⟨hs, fun _ => rfl⟩)
        · rw [max_eq_left hle]
          rcases IH k f hf with h | h
          · exact Or.inl h
          · exact Or.inr (h.later l rfl fun hs => ⟨hm' hs, fun _ => hc.2.1⟩)
      · cases he
        subst h2
        rcases IH k' f hf with h | h
        · exact Or.inl h
        · exact Or.inr (h.later l rfl fun hs => ⟨hs, fun _ => rfl⟩)
      · exact keep k' e he
    | _ =>
      rw [hop] at hB
      simp only [Book.apply, Option.bind_eq_bind, Option.bind_eq_some_iff] at hB
      obtain ⟨t, _, hB⟩ := hB
      split_ifs at hB
      cases hB; exact keep

/-- **C131.** The lock of a stake account is zero, or was set by a withdrawal at some earlier moment: from an account of the config, signed
by that account's owner of the time, and it is the time of that withdrawal plus the cooldown of that time. -/
theorem C131_lock_is_from_a_withdrawal (j : Journal env ck w J) (hb : belongs sk ck) {d : Delegation} (hd : stakeAt w sk = some d) :
    d.cooldown = 0 ∨ ∃ J1 l J2 k n B t e, J = J1 ++ l :: J2 ∧ l.op = .withdraw k n ∧ Book.empty.replay J1 = some B ∧
      B.terms = some t ∧ B.entry k = some e ∧ l.signed e.owner = true ∧
      d.cooldown = min (l.now + t.cooldownTime) (2 ^ 64 - 1) := by
  rcases lock_origin (S := fun _ => False) (P := False) (C129_journal_gives_book j) (fun _ _ _ _ _ _ h => h) (fun h => h.elim) sk
    ⟨d.authority, d.staked, d.cooldown⟩ (by simp only [bookOf, if_pos hb, hd, Option.map_some]) with h | h
  · exact Or.inl h
  · obtain ⟨J1, l, J2, k, n, B, t, f, h1, h2, h3, h4, h5, h6, h7, _⟩ := h
    exact Or.inr ⟨J1, l, J2, k, n, B, t, f, h1, h2, h3, h4, h5, h6, h7⟩

theorem moves_between_sol_stakers (j : Journal env ck w J) :
    ∀ l ∈ J, ∀ k k' n, l.op = .move k k' n → (∃ x, k = .solStakerPda x ck) ∧ ∃ x, k' = .solStakerPda x ck := by
  induction j with
  | genesis _ => simp
  | ext _ _ ih => exact ih
  | elsewhere _ _ _ _ ih => exact ih
  | line j O h hc ha ih =>
    intro l hl k k' n he
    rw [List.mem_append, List.mem_singleton] at hl
    rcases hl with hl | rfl
    · exact ih l hl k k' n he
    · dsimp only at he
      rw [he] at ha
      obtain ⟨hi, h3, h4⟩ := ha
      have R := Journal.reachable j
      obtain ⟨ck', s, t, x, y, x', y', g0, g3, g4, _, hb, hb', hx, hy, _⟩ := C15_move R O h hi
      rw [h3] at g3; cases g3
      rw [h4] at g4; cases g4
      have e : ck' = ck := by simp only [Ix.config, hi] at hc; rw [g0] at hc; simpa using hc
      subst e
      constructor
      · rcases hb with ⟨v, rfl⟩ | hb
        · obtain ⟨_, hk, _⟩ := C27_solStaker_address R hx
          simp at hk
        · exact hb
      · rcases hb' with ⟨v, rfl⟩ | hb
        · obtain ⟨_, hk, _⟩ := C27_solStaker_address R hy
          simp at hk
        · exact hb

theorem sol_keeps_owner (j : Journal env ck w J) :
    ∀ l ∈ J, ∀ k o, l.op = .handOver k o → ¬ ∃ x, k = .solStakerPda x ck := by
  induction j with
  | genesis _ => simp
  | ext _ _ ih => exact ih
  | elsewhere _ _ _ _ ih => exact ih
  | line _ _ _ _ ha ih =>
    intro l hl k o he
    rw [List.mem_append, List.mem_singleton] at hl
    rcases hl with hl | rfl
    · exact ih l hl k o he
    · dsimp only at he
      rw [he] at ha
      obtain ⟨_, vote, _, rfl, _⟩ := ha
      simp

/-- **C131.** The lock of a validator's stake account was set by a withdrawal from this very account, signed by its owner of the time. -/
theorem C131_validator (j : Journal env ck w J) {vote : Key} {v : ValidatorStake}
    (hv : validatorAt w (.validatorPda vote ck) = some v) : v.del.cooldown = 0 ∨
    ∃ J1 l J2 n B t e, J = J1 ++ l :: J2 ∧ l.op = .withdraw (.validatorPda vote ck) n ∧ Book.empty.replay J1 = some B ∧
      B.terms = some t ∧ B.entry (.validatorPda vote ck) = some e ∧ l.signed e.owner = true ∧
      v.del.cooldown = min (l.now + t.cooldownTime) (2 ^ 64 - 1) := by
  have hb : belongs (.validatorPda vote ck) ck := by simp [belongs]
  rcases lock_origin (S := fun k => k = .validatorPda vote ck) (P := False) (C129_journal_gives_book j)
    (fun l hl k k' n h hs => by
      obtain ⟨x, hx⟩ := (moves_between_sol_stakers j l hl k k' n h).2
      rw [hs] at hx; simp at hx) (fun h => h.elim) (.validatorPda vote ck) ⟨v.del.authority, v.del.staked, v.del.cooldown⟩
    (by simp only [bookOf, if_pos hb, stakeAt_of_validator hv, Option.map_some]) with h | h
  · exact Or.inl h
  · obtain ⟨J1, l, J2, k, n, B, t, f, h1, h2, h3, h4, h5, h6, h7, h8⟩ := h
    obtain ⟨rfl, _⟩ := h8 rfl
    exact Or.inr ⟨J1, l, J2, n, B, t, f, h1, h2, h3, h4, h5, h6, h7⟩

/-- An operation that neither withdraws from an account nor moves tokens to it leaves its lock as it is. -/
private theorem step_lock {s : Key → Bool} {n : Nat} {op : Book.Op} (h : B.apply s n op = some B') {k : Key}
    (hw : ∀ m, op ≠ .withdraw k m) (hm : ∀ k' m, op ≠ .move k' k m) {e' : Entry} (he' : B'.entry k = some e') :
    (∃ e, B.entry k = some e ∧ e'.lockedUntil = e.lockedUntil) ∨ (B.entry k = none ∧ e'.lockedUntil = 0) := by
  have one : ∀ k' (f g : Entry), B.entry k' = some f → (k' = k → g.lockedUntil = f.lockedUntil) → (B.put k' g).entry k = some e' →
      ∃ e, B.entry k = some e ∧ e'.lockedUntil = e.lockedUntil := by
    intro k' f g hf hg he
    simp only [Book.put] at he
    split_ifs at he with hk
    · cases he; subst hk; exact ⟨f, hf, hg rfl⟩
    · exact ⟨e', he, rfl⟩
  cases op with
  | settle => cases h; exact Or.inl ⟨e', he', rfl⟩
  | create t =>
    simp only [Book.apply] at h
    split_ifs at h
    cases h; exact Or.inl ⟨e', he', rfl⟩
  | openEntry k' owner =>
    simp only [Book.apply] at h
    split_ifs at h with hg
    cases h
    simp only [Book.put] at he'
    split_ifs at he' with hk
    · cases he'; subst hk; exact Or.inr ⟨hg.2, rfl⟩
    · exact Or.inl ⟨e', he', rfl⟩
  | handOver k' owner =>
    simp only [Book.apply, Option.bind_eq_bind, Option.bind_eq_some_iff] at h
    obtain ⟨f, hf, h⟩ := h
    cases h; exact Or.inl (one k' f _ hf (fun _ => by rfl) he')
  | deposit k' m =>
    simp only [Book.apply, Option.bind_eq_bind, Option.bind_eq_some_iff] at h
    obtain ⟨f, hf, h⟩ := h
    split_ifs at h
    cases h; exact Or.inl (one k' f _ hf (fun _ => by rfl) he')
  | withdraw k' m =>
    simp only [Book.apply, Option.bind_eq_bind, Option.bind_eq_some_iff] at h
    obtain ⟨t, _, f, hf, h⟩ := h
    split_ifs at h
    cases h; exact Or.inl (one k' f _ hf (fun e => absurd (by rw [e]) (hw m)) he')
  | slash k' m =>
    simp only [Book.apply, Option.bind_eq_bind, Option.bind_eq_some_iff] at h
    obtain ⟨t, _, f, hf, h⟩ := h
    split_ifs at h
    cases h; exact Or.inl (one k' f _ hf (fun _ => by rfl) he')
  | move k' l m =>
    simp only [Book.apply, Option.bind_eq_bind, Option.bind_eq_some_iff] at h
    obtain ⟨f, hf, g, hg, h⟩ := h
    split_ifs at h
    cases h
    have hl : k ≠ l := fun e => hm k' m (by rw [e])
    simp only [Book.put, if_neg hl] at he'
    split_ifs at he' with hk
    · cases he'; subst hk; exact Or.inl ⟨f, hf, rfl⟩
    · exact Or.inl ⟨e', he', rfl⟩
  | _ =>
    simp only [Book.apply, Option.bind_eq_bind, Option.bind_eq_some_iff] at h
    obtain ⟨t, _, h⟩ := h
    split_ifs at h
    cases h; exact Or.inl ⟨e', he', rfl⟩

private theorem last_lock {k : Key} (h : Book.empty.replay J = some B) (hm : ∀ l ∈ J, ∀ k' m, l.op ≠ .move k' k m) :
    (B.entry k = none → ∀ l ∈ J, ∀ n, l.op ≠ .withdraw k n) ∧
    ∀ e, B.entry k = some e → ((∀ l ∈ J, ∀ n, l.op ≠ .withdraw k n) ∧ e.lockedUntil = 0) ∨
      ∃ J1 l J2 n C t, J = J1 ++ l :: J2 ∧ l.op = .withdraw k n ∧ (∀ x ∈ J2, ∀ n, x.op ≠ .withdraw k n) ∧
        Book.empty.replay J1 = some C ∧ C.terms = some t ∧ e.lockedUntil = min (l.now + t.cooldownTime) (2 ^ 64 - 1) := by
  induction J using List.reverseRecOn generalizing B with
  | nil => cases h; exact ⟨by simp, fun e he => by simp [Book.empty] at he⟩
  | append_singleton J l ih =>
    obtain ⟨C, hC, hB⟩ := replay_snoc h
    obtain ⟨ih1, ih2⟩ := ih hC fun x hx => hm x (by simp [hx])
    by_cases hw : ∃ n, l.op = .withdraw k n
    · obtain ⟨n, hop⟩ := hw
      have hB' := hB
      rw [hop] at hB'
      simp only [Book.apply, Option.bind_eq_bind, Option.bind_eq_some_iff] at hB'
      obtain ⟨t, ht, f, hf, hB'⟩ := hB'
      split_ifs at hB' with hg
      cases hB'
      refine ⟨fun he => by simp [Book.put] at he, fun e he => Or.inr ⟨J, l, [], n, C, t, rfl, hop, by simp, hC, ht, ?_⟩⟩
      simp only [Book.put, if_true, Option.some.injEq] at he
      rw [← he]
    · push Not at hw
      have no : (∀ x ∈ J, ∀ n, x.op ≠ .withdraw k n) → ∀ x ∈ J ++ [l], ∀ n, x.op ≠ .withdraw k n := by
        intro hJ x hx n
        rw [List.mem_append, List.mem_singleton] at hx
        rcases hx with hx | rfl
        · exact hJ x hx n
        · exact hw n
      refine ⟨fun he => no (ih1 ?_), fun e he => ?_⟩
      · cases hk : C.entry k with
        | none => rfl
        | some f =>
          by_cases hh : ∃ o, l.op = .handOver k o
          · obtain ⟨o, hop⟩ := hh
            rw [hop] at hB
            simp only [Book.apply, Option.bind_eq_bind, Option.bind_eq_some_iff] at hB
            obtain ⟨g, _, hB⟩ := hB
            cases hB
            simp [Book.put] at he
          · push Not at hh
            obtain ⟨e', he', _⟩ := step_owner hB hk hh
            rw [he] at he'; simp at he'
      · rcases step_lock hB hw (hm l (by simp)) he with ⟨f, hf, hl⟩ | ⟨hn, hl⟩
        · rcases ih2 f hf with ⟨h1, h2⟩ | ⟨J1, x, J2, n, D, t, h1, h2, h3, h4, h5, h6⟩
          · exact Or.inl ⟨no h1, hl.trans h2⟩
          · refine Or.inr ⟨J1, x, J2 ++ [l], n, D, t, by rw [h1]; simp, h2, fun y hy m => ?_, h4, h5, hl.trans h6⟩
            rw [List.mem_append, List.mem_singleton] at hy
            rcases hy with hy | rfl
            · exact h3 y hy m
            · exact hw m
        · exact Or.inl ⟨no (ih1 hn), hl⟩

/-- **C131.** More exactly: the lock of a validator's stake account is zero if nothing was ever withdrawn from it, and otherwise the time of
the last withdrawal from it plus the cooldown that the config had at that moment. -/
theorem C131_validator_last (j : Journal env ck w J) {vote : Key} {v : ValidatorStake}
    (hv : validatorAt w (.validatorPda vote ck) = some v) :
    ((∀ l ∈ J, ∀ n, l.op ≠ .withdraw (.validatorPda vote ck) n) ∧ v.del.cooldown = 0) ∨
    ∃ J1 l J2 n B t, J = J1 ++ l :: J2 ∧ l.op = .withdraw (.validatorPda vote ck) n ∧
      (∀ x ∈ J2, ∀ n, x.op ≠ .withdraw (.validatorPda vote ck) n) ∧ Book.empty.replay J1 = some B ∧ B.terms = some t ∧
      v.del.cooldown = min (l.now + t.cooldownTime) (2 ^ 64 - 1) := by
  have hb : belongs (.validatorPda vote ck) ck := by simp [belongs]
  refine (last_lock (C129_journal_gives_book j) fun l hl k' m h => ?_).2 ⟨v.del.authority, v.del.staked, v.del.cooldown⟩
    (by simp only [bookOf, if_pos hb, stakeAt_of_validator hv, Option.map_some])
  obtain ⟨x, hx⟩ := (moves_between_sol_stakers j l hl k' _ m h).2
  simp at hx

/-- **C131.** The lock of a SOL staker's stake account was set by a withdrawal that this staker has signed, from one of their own accounts.
So whoever has signed no withdrawal is not locked, whatever others have done. -/
theorem C131_own_doing (j : Journal env ck w J) {native : Key} {s : SolStakerStake}
    (hs : solStakerAt w (.solStakerPda native ck) = some s) : s.del.cooldown = 0 ∨
    ∃ J1 l J2 x n B t e, J = J1 ++ l :: J2 ∧ l.op = .withdraw (.solStakerPda x ck) n ∧ Book.empty.replay J1 = some B ∧
      B.terms = some t ∧ B.entry (.solStakerPda x ck) = some e ∧ e.owner = s.del.authority ∧ l.signed s.del.authority = true ∧
      s.del.cooldown = min (l.now + t.cooldownTime) (2 ^ 64 - 1) := by
  have hb : belongs (.solStakerPda native ck) ck := by simp [belongs]
  rcases lock_origin (S := fun k => ∃ x, k = .solStakerPda x ck) (P := True) (C129_journal_gives_book j)
    (fun l hl k k' n h _ => (moves_between_sol_stakers j l hl k k' n h).1) (fun _ => sol_keeps_owner j) (.solStakerPda native ck) ⟨s.del.authority, s.del.staked, s.del.cooldown⟩
    (by simp only [bookOf, if_pos hb, stakeAt_of_solStaker hs, Option.map_some]) with h | h
  · exact Or.inl h
  · obtain ⟨J1, l, J2, k, n, B, t, f, h1, h2, h3, h4, h5, h6, h7, h8⟩ := h
    obtain ⟨⟨x, rfl⟩, h9⟩ := h8 ⟨native, rfl⟩
    have h9 := h9 trivial
    exact Or.inr ⟨J1, l, J2, x, n, B, t, f, h1, h2, h3, h4, h5, h9, by rw [h9] at h6; exact h6, h7⟩

/-- **C131.** In particular: a SOL staker who has signed none of the instructions on the config is not locked. -/
theorem C131_unsigned_is_unlocked (j : Journal env ck w J) {native : Key} {s : SolStakerStake}
    (hs : solStakerAt w (.solStakerPda native ck) = some s) (hn : ∀ l ∈ J, l.signed s.del.authority = false) :
    s.del.cooldown = 0 := by
  rcases C131_own_doing j hs with h | ⟨J1, l, J2, _, _, _, _, _, rfl, _, _, _, _, _, h, _⟩
  · exact h
  · rw [hn l (by simp)] at h
    simp at h

/-! In the example history the staker of `sol1` withdraws at time 2000 under a cooldown of 100, and the account is locked until 2100.
Before that it was not locked. -/

example : (stakeAt w12 sol1).map (·.cooldown) = some 0 ∧ (stakeAt w13 sol1).map (·.cooldown) = some 2100 := by decide +kernel

example : ∃ J, Journal Witness.env cfg w13 J ∧ ∃ l ∈ J, ∃ k n, l.op = .withdraw k n ∧ l.signed staker = true := by
  obtain ⟨J, j⟩ := C129_there_is_a_journal r13 cfg
  refine ⟨J, j, ?_⟩
  have h : (solStakerAt w13 sol1).map (fun s => (s.del.authority, s.del.cooldown)) = some (staker, 2100) := by decide +kernel
  cases hs : solStakerAt w13 sol1 with
  | none => rw [hs] at h; simp at h
  | some s =>
    rw [hs] at h
    simp only [Option.map_some, Option.some.injEq, Prod.mk.injEq] at h
    rcases C131_own_doing j hs with h0 | ⟨J1, l, J2, x, n, _, _, _, rfl, hop, _, _, _, _, hsig, _⟩
    · rw [h.2] at h0; simp at h0
    · rw [h.1] at hsig
      exact ⟨l, by simp, _, _, hop, hsig⟩

/-- The first validator withdraws at time 2000 as well. -/
def lockedVal : World := after o2 w13 ixUnstakeVal1

example : ∃ J v, Journal Witness.env cfg lockedVal J ∧ validatorAt lockedVal val1 = some v ∧ v.del.cooldown = 2100 := by
  have hok : okB o2 w13 ixUnstakeVal1 = true := by decide +kernel
  have R : Reachable Witness.env lockedVal := .exec r13 o2_ok (ok_after hok)
  obtain ⟨J, j⟩ := C129_there_is_a_journal R cfg
  have h : (validatorAt lockedVal val1).map (·.del.cooldown) = some 2100 := by decide +kernel
  cases hv : validatorAt lockedVal val1 with
  | none => rw [hv] at h; simp at h
  | some v =>
    rw [hv] at h
    exact ⟨J, v, j, rfl, by simpa using h⟩

end Verif.Props
