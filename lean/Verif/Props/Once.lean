import Verif.SpecOnce
import Verif.Props.Holdings
/-!
# C135: every account of the program comes from exactly one initialisation
-/

namespace Verif.Props

open Verif Verif.Witness

variable {env env' : Env} {w w' : World} {ck sk : Key} {J : List Line} {B B' : Book}

private theorem count_replay {read : Book → Nat} {f : Book.Op → Nat}
    (step : ∀ (B B' : Book) (s : Key → Bool) (n : Nat) (op : Book.Op), B.apply s n op = some B' → read B' = read B + f op)
    (h : B.replay J = some B') : read B' = read B + tally J f := by
  induction J generalizing B with
  | nil => cases h; rfl
  | cons l ls ih =>
    simp only [Book.replay, Option.bind_eq_bind, Option.bind_eq_some_iff] at h
    obtain ⟨C, hC, h⟩ := h
    rw [ih h, step _ _ _ _ _ hC]
    simp only [tally, List.map_cons, List.sum_cons]
    omega

private def present {α : Type} (x : Option α) : Nat := if x.isSome then 1 else 0

private theorem terms_present (B B' : Book) (s : Key → Bool) (n : Nat) (op : Book.Op) (h : B.apply s n op = some B') :
    present B'.terms = present B.terms + op.creates := by
  cases op with
  | settle => cases h; rfl
  | create t =>
    simp only [Book.apply] at h
    split_ifs at h with hg
    cases h; rw [hg.1]; rfl
  | openEntry k owner =>
    simp only [Book.apply] at h
    split_ifs at h
    cases h; rfl
  | handOver k owner | deposit k m =>
    simp only [Book.apply, Option.bind_eq_bind, Option.bind_eq_some_iff] at h
    obtain ⟨f, hf, h⟩ := h
    (try split_ifs at h) <;> cases h <;> rfl
  | withdraw k m | slash k m =>
    simp only [Book.apply, Option.bind_eq_bind, Option.bind_eq_some_iff] at h
    obtain ⟨t, _, f, hf, h⟩ := h
    split_ifs at h
    cases h; rfl
  | move k l m =>
    simp only [Book.apply, Option.bind_eq_bind, Option.bind_eq_some_iff] at h
    obtain ⟨f, hf, g, hg, h⟩ := h
    split_ifs at h
    cases h; rfl
  | _ =>
    simp only [Book.apply, Option.bind_eq_bind, Option.bind_eq_some_iff] at h
    obtain ⟨t, ht, h⟩ := h
    split_ifs at h
    cases h; rw [ht]; rfl

private theorem put_present {k k' : Key} {f g : Entry} (hf : B.entry k' = some f) :
    present ((B.put k' g).entry k) = present (B.entry k) := by
  simp only [Book.put]
  split_ifs with h
  · subst h; rw [hf]; rfl
  · rfl

private theorem entry_present (k : Key) (B B' : Book) (s : Key → Bool) (n : Nat) (op : Book.Op) (h : B.apply s n op = some B') :
    present (B'.entry k) = present (B.entry k) + op.opens k := by
  cases op with
  | settle => cases h; rfl
  | create t =>
    simp only [Book.apply] at h
    split_ifs at h
    cases h; rfl
  | openEntry k' owner =>
    simp only [Book.apply] at h
    split_ifs at h with hg
    cases h
    simp only [Book.put, Book.Op.opens, eq_comm (a := k')]
    split_ifs with e
    · subst e; rw [hg.2]; rfl
    · rfl
  | handOver k' owner =>
    simp only [Book.apply, Option.bind_eq_bind, Option.bind_eq_some_iff] at h
    obtain ⟨f, hf, h⟩ := h
    cases h; exact put_present hf
  | deposit k' m =>
    simp only [Book.apply, Option.bind_eq_bind, Option.bind_eq_some_iff] at h
    obtain ⟨f, hf, h⟩ := h
    split_ifs at h
    cases h; exact put_present hf
  | withdraw k' m | slash k' m =>
    simp only [Book.apply, Option.bind_eq_bind, Option.bind_eq_some_iff] at h
    obtain ⟨t, _, f, hf, h⟩ := h
    split_ifs at h
    cases h; exact put_present hf
  | move k' l m =>
    simp only [Book.apply, Option.bind_eq_bind, Option.bind_eq_some_iff] at h
    obtain ⟨f, hf, g, hg, h⟩ := h
    split_ifs at h with hc
    cases h
    have h1 : (B.put k' { f with tokens := f.tokens - m }).entry l = some g := by
      simp only [Book.put, if_neg (Ne.symm hc.1), hg]
    have h2 := put_present (k := k) (g := { f with tokens := f.tokens - m }) hf
    exact (put_present h1).trans h2
  | _ =>
    simp only [Book.apply, Option.bind_eq_bind, Option.bind_eq_some_iff] at h
    obtain ⟨t, _, h⟩ := h
    split_ifs at h
    cases h; rfl

/-- **C135.** A config exists exactly if it was created, and then it was created once. -/
theorem C135_config_once (j : Journal env ck w J) :
    tally J (·.creates) = if (configAt w ck).isSome then 1 else 0 := by
  have h := count_replay (read := fun B => present B.terms) (f := fun op => op.creates) terms_present (C129_journal_gives_book j)
  have e : present (Book.empty.terms) = 0 := rfl
  simp only [e, Nat.zero_add] at h
  rw [← h]
  simp only [present, bookOf, Option.isSome_map]

/-- **C135.** A stake account of a config exists exactly if it was opened by an instruction on this config, and then it was opened once. -/
theorem C135_stake_once (j : Journal env ck w J) (hb : belongs sk ck) :
    tally J (·.opens sk) = if (stakeAt w sk).isSome then 1 else 0 := by
  have h := count_replay (read := fun B => present (B.entry sk)) (f := fun op => op.opens sk) (entry_present sk)
    (C129_journal_gives_book j)
  have e : present (Book.empty.entry sk) = 0 := rfl
  simp only [e, Nat.zero_add] at h
  rw [← h]
  simp only [present, bookOf, if_pos hb, Option.isSome_map]

/-- **C135.** Nothing but the journal counts: two histories, in whatever environments, that have the same journal of a config end with the
same terms and the same stake accounts of it, with the same owners, tokens and locks. -/
theorem C135_same_journal (j : Journal env ck w J) (j' : Journal env' ck w' J) : bookOf w ck = bookOf w' ck := by
  have h := C129_journal_gives_book j
  rw [C129_journal_gives_book j', Option.some.injEq] at h
  exact h.symm

/-! The journal of the example history creates the config once, and opens each of the four stake accounts once. -/

example : tally linesTo13 (·.creates) = 1 ∧ (configAt w13 cfg).isSome = true ∧
    (∀ k ∈ [val1, val2, sol1, sol2], tally linesTo13 (·.opens k) = 1 ∧ (stakeAt w13 k).isSome = true) ∧
    tally linesTo13 (·.opens (.validatorPda (.raw 999) cfg)) = 0 := by decide +kernel

example : stakeAt w13 (.validatorPda (.raw 999) cfg) = none := by
  have h := C135_stake_once (sk := .validatorPda (.raw 999) cfg) journal13 (by simp [belongs])
  have e : tally linesTo13 (·.opens (.validatorPda (.raw 999) cfg)) = 0 := by decide +kernel
  rw [e] at h
  cases hs : stakeAt w13 (.validatorPda (.raw 999) cfg) with
  | none => rfl
  | some d => rw [hs] at h; simp at h

end Verif.Props
