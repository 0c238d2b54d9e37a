import Verif.SpecJournal
import Verif.Props.Book
/-!
# C129: the stakes can be computed from the instructions alone
-/

namespace Verif.Props

open Verif Verif.Witness

variable {env : Env} {o : Oracle} {w w' : World} {ix : Ix} {ck : Key} {J : List Line} {op op' : Book.Op}

/-- **C129.** The line to be written down is determined by the instruction and the accounts it names. -/
theorem C129_line_is_determined (h : asksFor env o w ix ck op) (h' : asksFor env o w ix ck op') : op = op' := by
  cases op with
  | settle =>
    rcases h with hi | hi | hi | ⟨n, hi⟩ <;> cases op' <;> simp [asksFor, hi] at h' <;> rfl
  | create t =>
    obtain ⟨sl, au, ha, hi, h1, h2, h3⟩ := h
    cases op' <;> simp [asksFor, hi] at h'
    rename_i t'
    cases t; cases t'
    simp_all
  | openEntry k owner =>
    rcases h with ⟨hi, vote, a1, a2, a3, a4⟩ | ⟨hi, native, v, a1, a2, a3, a4⟩
    · cases op' <;> simp [asksFor, hi] at h'
      obtain ⟨vote', b1, b2, b3, b4⟩ := h'
      rw [a1] at b1; cases b1
      rw [a4] at b4; cases b4
      rw [a2, b2]
    · cases op' <;> simp [asksFor, hi] at h'
      obtain ⟨native', b1, b2, v', b3, b4⟩ := h'
      rw [a1] at b1; cases b1
      rw [a3] at b3; cases b3
      rw [a2, b2, a4, b4]
  | handOver k owner =>
    obtain ⟨hi, vote, a1, a2, a3, a4⟩ := h
    cases op' <;> simp [asksFor, hi] at h'
    obtain ⟨vote', b1, b2, b3, b4⟩ := h'
    rw [a1] at b1; cases b1
    rw [a4] at b4; cases b4
    rw [a2, b2]
  | deposit k n =>
    obtain ⟨hi | hi, a1⟩ := h <;> cases op' <;> simp [asksFor, hi] at h' <;>
    · obtain ⟨rfl, b1⟩ := h'
      rw [a1] at b1; cases b1; rfl
  | withdraw k n =>
    obtain ⟨hi, a1⟩ := h
    cases op' <;> simp [asksFor, hi] at h'
    obtain ⟨rfl, b1⟩ := h'
    rw [a1] at b1; cases b1; rfl
  | slash k n =>
    obtain ⟨hi | hi, a1⟩ := h <;> cases op' <;> simp [asksFor, hi] at h' <;>
    · obtain ⟨rfl, b1⟩ := h'
      rw [a1] at b1; cases b1; rfl
  | move k l n =>
    obtain ⟨hi, a1, a2⟩ := h
    cases op' <;> simp [asksFor, hi] at h'
    obtain ⟨rfl, b1, b2⟩ := h'
    rw [a1] at b1; cases b1
    rw [a2] at b2; cases b2; rfl
  | setCooldownTime v =>
    have hi : ix.decoded = _ := h
    cases op' <;> simp [asksFor, hi] at h'
    rw [h']
  | setLimit v =>
    have hi : ix.decoded = _ := h
    cases op' <;> simp [asksFor, hi] at h'
    rw [h']
  | setSyncRewards v =>
    have hi : ix.decoded = _ := h
    cases op' <;> simp [asksFor, hi] at h'
    rw [h']
  | setAuthority new =>
    obtain ⟨hi, a1⟩ := h
    cases op' <;> simp [asksFor, hi] at h'
    rw [a1] at h'; cases h'; rfl
  | setSlashAuthority new =>
    obtain ⟨hi, a1⟩ := h
    cases op' <;> simp [asksFor, hi] at h'
    rw [a1] at h'; cases h'; rfl

theorem Journal.reachable (h : Journal env ck w J) : Reachable env w := by
  induction h with
  | genesis G => exact .genesis G
  | ext _ E ih => exact .ext ih E
  | elsewhere _ O h _ ih => exact .exec ih O h
  | line _ O h _ _ ih => exact .exec ih O h

private theorem replay_append {B : Book} {J K : List Line} : B.replay (J ++ K) = (B.replay J).bind fun B' => B'.replay K := by
  induction J generalizing B with
  | nil => rfl
  | cons l ls ih =>
    simp only [List.cons_append, Book.replay, Option.bind_eq_bind, Option.bind_assoc]
    congr 1
    funext B'
    exact ih

/-- **C129.** Whoever starts with an empty book and follows the journal of a config by the rules of the machine is never stopped, and
ends with the terms of the config and the owner, tokens and lock of each of its stake accounts, as they are on the chain. -/
theorem C129_journal_gives_book (h : Journal env ck w J) : Book.empty.replay J = some (bookOf w ck) := by
  induction h with
  | genesis G => rw [genesis_book G]; rfl
  | ext j E ih => rw [ih, C123_others_write_nothing (Journal.reachable j) E]
  | elsewhere j O h hc ih =>
    obtain ⟨ck', _, hck, _, _, ho⟩ := C123_program_is_the_machine (Journal.reachable j) O h
    rw [ih, ho ck (by rintro rfl; exact hc hck)]
  | line j O h hc ha ih =>
    obtain ⟨ck', op, hck, ha', hB, _⟩ := C123_program_is_the_machine (Journal.reachable j) O h
    rw [hc] at hck; cases hck
    rw [C129_line_is_determined ha ha', replay_append, ih]
    simp only [Option.bind_some, Book.replay, hB, Option.bind_eq_bind]

/-- **C129.** Every history has a journal. -/
theorem C129_there_is_a_journal (R : Reachable env w) (ck : Key) : ∃ J, Journal env ck w J := by
  induction R with
  | genesis G => exact ⟨_, .genesis G⟩
  | ext _ E ih => obtain ⟨J, j⟩ := ih; exact ⟨J, .ext j E⟩
  | @exec o w w' ix R O h ih =>
    obtain ⟨J, j⟩ := ih
    by_cases hc : ix.config = some ck
    · obtain ⟨ck', op, hck, ha, _⟩ := C123_program_is_the_machine R O h
      rw [hc] at hck; cases hck
      exact ⟨_, .line j O h hc ha⟩
    · exact ⟨J, .elsewhere j O h hc⟩

/-! The beginning of the journal of the example history, and what it comes to: the config and both validators have been set up, then a
SOL staker, who stakes 500. -/

def firstLines : List Line :=
  let by' (ix : Ix) (op : Book.Op) : Line := ⟨ix.ctx.signer, o1.now, op⟩
  [by' ixInitConfig (.create ⟨configAuth, slashAuth, vault, 100, 5000, 10⟩), by' ixInitVal1 (.openEntry val1 auth1),
    by' ixInitVal2 (.openEntry val2 auth2), by' ixInitSol1 (.openEntry sol1 staker), by' ixInitSol2 (.openEntry sol2 staker),
    by' ixStakeVal1 (.deposit val1 2000), by' ixStakeSol1 (.deposit sol1 500)]

example : (Book.empty.replay firstLines).map (fun B => (B.terms, B.entry val1, B.entry sol1, B.entry sol2)) =
      some ((bookOf w7 cfg).terms, (bookOf w7 cfg).entry val1, (bookOf w7 cfg).entry sol1, (bookOf w7 cfg).entry sol2) ∧
    (bookOf w7 cfg).entry sol1 = some ⟨staker, 500, 0⟩ := by
  decide +kernel

example : ∃ J, Journal Witness.env cfg w21 J ∧ Book.empty.replay J = some (bookOf w21 cfg) := by
  obtain ⟨J, j⟩ := C129_there_is_a_journal r21 cfg
  exact ⟨J, j, C129_journal_gives_book j⟩

end Verif.Props
