import Verif.SpecLast
import Verif.Props.Holdings
/-!
# C134: what is in force is what was asked for last
-/

namespace Verif.Props

open Verif Verif.Witness

variable {env : Env} {w : World} {ck sk : Key} {J : List Line} {B B' : Book}

private theorem last_wins {α : Type} {read : Book → Option α} {write : Book.Op → Option α}
    (step : ∀ (B B' : Book) (s : Key → Bool) (n : Nat) (op : Book.Op), B.apply s n op = some B' →
      read B' = (write op).or (read B)) (h : B.replay J = some B') :
    read B' = (lastAsked J write).or (read B) := by
  induction J generalizing B with
  | nil => cases h; rfl
  | cons l ls ih =>
    simp only [Book.replay, Option.bind_eq_bind, Option.bind_eq_some_iff] at h
    obtain ⟨C, hC, h⟩ := h
    rw [ih h, step _ _ _ _ _ hC]
    unfold lastAsked
    cases hw : write l.op with
    | none => rw [List.filterMap_cons_none (f := fun l : Line => write l.op) hw]; rfl
    | some v =>
      rw [List.filterMap_cons_some (f := fun l : Line => write l.op) hw, List.getLast?_cons]
      cases (ls.filterMap fun l => write l.op).getLast? <;> rfl

private theorem terms_step {α : Type} (g : Terms → α) (write : Book.Op → Option α)
    (h1 : ∀ t, write (.create t) = some (g t))
    (h2 : ∀ t v, (write (.setCooldownTime v)).or (some (g t)) = some (g { t with cooldownTime := v }))
    (h3 : ∀ t v, (write (.setLimit v)).or (some (g t)) = some (g { t with maxBps := v }))
    (h4 : ∀ t v, (write (.setSyncRewards v)).or (some (g t)) = some (g { t with syncRewards := v }))
    (h5 : ∀ t v, (write (.setAuthority v)).or (some (g t)) = some (g { t with authority := v }))
    (h6 : ∀ t v, (write (.setSlashAuthority v)).or (some (g t)) = some (g { t with slashAuthority := v }))
    (h7 : write .settle = none ∧ (∀ k o, write (.openEntry k o) = none) ∧ (∀ k o, write (.handOver k o) = none) ∧
      (∀ k n, write (.deposit k n) = none) ∧ (∀ k n, write (.withdraw k n) = none) ∧ (∀ k n, write (.slash k n) = none) ∧
      ∀ k l n, write (.move k l n) = none)
    (B B' : Book) (s : Key → Bool) (n : Nat) (op : Book.Op) (h : B.apply s n op = some B') :
    B'.terms.map g = (write op).or (B.terms.map g) := by
  obtain ⟨g1, g2, g3, g4, g5, g6, g7⟩ := h7
  cases op with
  | settle => cases h; rw [g1]; rfl
  | create t =>
    simp only [Book.apply] at h
    split_ifs at h
    cases h; rw [h1]; rfl
  | openEntry k owner =>
    simp only [Book.apply] at h
    split_ifs at h
    cases h; rw [g2]; rfl
  | handOver k owner =>
    simp only [Book.apply, Option.bind_eq_bind, Option.bind_eq_some_iff] at h
    obtain ⟨f, hf, h⟩ := h
    cases h; rw [g3]; rfl
  | deposit k m =>
    simp only [Book.apply, Option.bind_eq_bind, Option.bind_eq_some_iff] at h
    obtain ⟨f, hf, h⟩ := h
    split_ifs at h
    cases h; rw [g4]; rfl
  | withdraw k m =>
    simp only [Book.apply, Option.bind_eq_bind, Option.bind_eq_some_iff] at h
    obtain ⟨t, _, f, hf, h⟩ := h
    split_ifs at h
    cases h; rw [g5]; rfl
  | slash k m =>
    simp only [Book.apply, Option.bind_eq_bind, Option.bind_eq_some_iff] at h
    obtain ⟨t, _, f, hf, h⟩ := h
    split_ifs at h
    cases h; rw [g6]; rfl
  | move k l m =>
    simp only [Book.apply, Option.bind_eq_bind, Option.bind_eq_some_iff] at h
    obtain ⟨f, hf, f', hf', h⟩ := h
    split_ifs at h
    cases h; rw [g7]; rfl
  | setCooldownTime v =>
    simp only [Book.apply, Option.bind_eq_bind, Option.bind_eq_some_iff] at h
    obtain ⟨t, ht, h⟩ := h
    split_ifs at h
    cases h; rw [ht]; exact (h2 t v).symm
  | setLimit v =>
    simp only [Book.apply, Option.bind_eq_bind, Option.bind_eq_some_iff] at h
    obtain ⟨t, ht, h⟩ := h
    split_ifs at h
    cases h; rw [ht]; exact (h3 t v).symm
  | setSyncRewards v =>
    simp only [Book.apply, Option.bind_eq_bind, Option.bind_eq_some_iff] at h
    obtain ⟨t, ht, h⟩ := h
    split_ifs at h
    cases h; rw [ht]; exact (h4 t v).symm
  | setAuthority v =>
    simp only [Book.apply, Option.bind_eq_bind, Option.bind_eq_some_iff] at h
    obtain ⟨t, ht, h⟩ := h
    split_ifs at h
    cases h; rw [ht]; exact (h5 t v).symm
  | setSlashAuthority v =>
    simp only [Book.apply, Option.bind_eq_bind, Option.bind_eq_some_iff] at h
    obtain ⟨t, ht, h⟩ := h
    split_ifs at h
    cases h; rw [ht]; exact (h6 t v).symm

private theorem asked_last {α : Type} {read : Book → Option α} {write : Book.Op → Option α} (j : Journal env ck w J)
    (h0 : read Book.empty = none)
    (step : ∀ (B B' : Book) (s : Key → Bool) (n : Nat) (op : Book.Op), B.apply s n op = some B' →
      read B' = (write op).or (read B)) : lastAsked J write = read (bookOf w ck) := by
  have := last_wins step (C129_journal_gives_book j)
  rw [h0, Option.or_none] at this
  exact this.symm

/-- **C134.** The settings and authorities in force are those that were asked for last, at the creation of the config or by a later
successful instruction. -/
theorem C134_settings (j : Journal env ck w J) {c : Config} (hc : configAt w ck = some c) :
    lastAsked J (·.cooldownTime?) = some c.cooldownTime ∧ lastAsked J (·.limit?) = some c.maxBps ∧
    lastAsked J (·.keeperReward?) = some c.syncRewards ∧ lastAsked J (·.authority?) = some c.authority ∧
    lastAsked J (·.slashAuthority?) = some c.slashAuthority ∧ lastAsked J (·.vault?) = some c.vault := by
  have ht : (bookOf w ck).terms = some ⟨c.authority, c.slashAuthority, c.vault, c.cooldownTime, c.maxBps, c.syncRewards⟩ := by
    simp only [bookOf, hc, Option.map_some]
  have go : ∀ {α : Type} (g : Terms → α) (write : Book.Op → Option α) (_ : ∀ (B B' : Book) (s : Key → Bool) (n : Nat)
      (op : Book.Op), B.apply s n op = some B' → B'.terms.map g = (write op).or (B.terms.map g)),
      lastAsked J write = some (g ⟨c.authority, c.slashAuthority, c.vault, c.cooldownTime, c.maxBps, c.syncRewards⟩) := by
    intro α g write step
    have := asked_last (read := fun B => B.terms.map g) j rfl step
    rw [this]
    simp only [ht, Option.map_some]
  refine ⟨go (·.cooldownTime) _ (terms_step _ _ ?_ ?_ ?_ ?_ ?_ ?_ ?_), go (·.maxBps) _ (terms_step _ _ ?_ ?_ ?_ ?_ ?_ ?_ ?_),
    go (·.syncRewards) _ (terms_step _ _ ?_ ?_ ?_ ?_ ?_ ?_ ?_), go (·.authority) _ (terms_step _ _ ?_ ?_ ?_ ?_ ?_ ?_ ?_),
    go (·.slashAuthority) _ (terms_step _ _ ?_ ?_ ?_ ?_ ?_ ?_ ?_), go (·.vault) _ (terms_step _ _ ?_ ?_ ?_ ?_ ?_ ?_ ?_)⟩
  all_goals first
    | exact fun _ => rfl
    | exact fun _ _ => rfl
    | exact ⟨rfl, fun _ _ => rfl, fun _ _ => rfl, fun _ _ => rfl, fun _ _ => rfl, fun _ _ => rfl, fun _ _ _ => rfl⟩

private theorem put_owner {k k' : Key} {f g : Entry} (hf : B.entry k' = some f) (ho : g.owner = f.owner) :
    ((B.put k' g).entry k).map (·.owner) = (B.entry k).map (·.owner) := by
  simp only [Book.put]
  split_ifs with h
  · subst h; rw [hf]; simp [ho]
  · rfl

private theorem owner_step (k : Key) (B B' : Book) (s : Key → Bool) (n : Nat) (op : Book.Op) (h : B.apply s n op = some B') :
    (B'.entry k).map (·.owner) = (op.owner? k).or ((B.entry k).map (·.owner)) := by
  cases op with
  | settle => cases h; rfl
  | create t =>
    simp only [Book.apply] at h
    split_ifs at h
    cases h; rfl
  | openEntry k' owner =>
    simp only [Book.apply] at h
    split_ifs at h
    cases h
    simp only [Book.put, Book.Op.owner?, eq_comm (a := k')]
    split_ifs <;> rfl
  | handOver k' owner =>
    simp only [Book.apply, Option.bind_eq_bind, Option.bind_eq_some_iff] at h
    obtain ⟨f, hf, h⟩ := h
    cases h
    simp only [Book.put, Book.Op.owner?, eq_comm (a := k')]
    split_ifs <;> rfl
  | deposit k' m =>
    simp only [Book.apply, Option.bind_eq_bind, Option.bind_eq_some_iff] at h
    obtain ⟨f, hf, h⟩ := h
    split_ifs at h
    cases h; exact put_owner hf rfl
  | withdraw k' m =>
    simp only [Book.apply, Option.bind_eq_bind, Option.bind_eq_some_iff] at h
    obtain ⟨t, _, f, hf, h⟩ := h
    split_ifs at h
    cases h; exact put_owner hf rfl
  | slash k' m =>
    simp only [Book.apply, Option.bind_eq_bind, Option.bind_eq_some_iff] at h
    obtain ⟨t, _, f, hf, h⟩ := h
    split_ifs at h
    cases h; exact put_owner hf rfl
  | move k' l m =>
    simp only [Book.apply, Option.bind_eq_bind, Option.bind_eq_some_iff] at h
    obtain ⟨f, hf, g, hg, h⟩ := h
    split_ifs at h with hc
    cases h
    have h1 : (B.put k' { f with tokens := f.tokens - m }).entry l = some g := by
      simp only [Book.put, if_neg (Ne.symm hc.1), hg]
    have h2 := put_owner (k := k) (g := { f with tokens := f.tokens - m }) hf rfl
    exact (put_owner (g := { g with tokens := g.tokens + m, lockedUntil := max f.lockedUntil g.lockedUntil }) h1 rfl).trans h2
  | _ =>
    simp only [Book.apply, Option.bind_eq_bind, Option.bind_eq_some_iff] at h
    obtain ⟨t, _, h⟩ := h
    split_ifs at h
    cases h; rfl

/-- **C134.** The authority of a stake account is the one that it was given last, when it was created or by a ValidatorSyncAuthority. -/
theorem C134_owner (j : Journal env ck w J) (hb : belongs sk ck) {d : Delegation} (hd : stakeAt w sk = some d) :
    lastAsked J (·.owner? sk) = some d.authority := by
  rw [asked_last (read := fun B => (B.entry sk).map (·.owner)) j rfl (owner_step sk)]
  simp only [bookOf, if_pos hb, hd, Option.map_some]

/-- **C134.** Whoever asked for a change was entitled to: apart from the creation, a line that asks for a cooldown time, limit, keeper
reward or config authority was signed by the config authority in force at that moment, one that asks for a slash authority by the
slash authority in force. -/
theorem C134_entitled {J1 J2 : List Line} {l : Line} (j : Journal env ck w (J1 ++ l :: J2)) (hn : ∀ t, l.op ≠ .create t) :
    ((l.op.cooldownTime? ≠ none ∨ l.op.limit? ≠ none ∨ l.op.keeperReward? ≠ none ∨ l.op.authority? ≠ none) →
      ∃ a, lastAsked J1 (·.authority?) = some a ∧ a ≠ .default ∧ l.signed a = true) ∧
    (l.op.slashAuthority? ≠ none → ∃ a, lastAsked J1 (·.slashAuthority?) = some a ∧ a ≠ .default ∧ l.signed a = true) := by
  obtain ⟨C, C', h1, h2⟩ := replay_split (C129_journal_gives_book j)
  have e1 := last_wins (read := fun B => B.terms.map (·.authority)) (write := fun op => op.authority?) (terms_step (·.authority) (·.authority?)
    (fun _ => rfl) (fun _ _ => rfl) (fun _ _ => rfl) (fun _ _ => rfl) (fun _ _ => rfl) (fun _ _ => rfl)
    ⟨rfl, fun _ _ => rfl, fun _ _ => rfl, fun _ _ => rfl, fun _ _ => rfl, fun _ _ => rfl, fun _ _ _ => rfl⟩) h1
  have e2 := last_wins (read := fun B => B.terms.map (·.slashAuthority)) (write := fun op => op.slashAuthority?) (terms_step (·.slashAuthority) (·.slashAuthority?)
    (fun _ => rfl) (fun _ _ => rfl) (fun _ _ => rfl) (fun _ _ => rfl) (fun _ _ => rfl) (fun _ _ => rfl)
    ⟨rfl, fun _ _ => rfl, fun _ _ => rfl, fun _ _ => rfl, fun _ _ => rfl, fun _ _ => rfl, fun _ _ _ => rfl⟩) h1
  simp only [Book.empty, Option.map_none, Option.or_none] at e1 e2
  rw [← e1, ← e2]
  cases hop : l.op with
  | create t => exact absurd hop (hn t)
  | setCooldownTime v | setLimit v | setSyncRewards v | setAuthority v | setSlashAuthority v =>
    rw [hop] at h2
    simp only [Book.apply, Option.bind_eq_bind, Option.bind_eq_some_iff] at h2
    obtain ⟨t, ht, h2⟩ := h2
    split_ifs at h2 with hg
    first
      | exact ⟨fun _ => ⟨t.authority, by rw [ht]; rfl, hg.1, hg.2⟩, fun h => absurd rfl h⟩
      | exact ⟨fun _ => ⟨t.authority, by rw [ht]; rfl, hg.1, hg.2.1⟩, fun h => absurd rfl h⟩
      | exact ⟨fun h => by simp [Book.Op.cooldownTime?, Book.Op.limit?, Book.Op.keeperReward?, Book.Op.authority?] at h,
          fun _ => ⟨t.slashAuthority, by rw [ht]; rfl, hg.1, hg.2⟩⟩
  | _ =>
    exact ⟨fun h => by simp [Book.Op.cooldownTime?, Book.Op.limit?, Book.Op.keeperReward?, Book.Op.authority?] at h,
      fun h => absurd rfl h⟩

/-! In the example history the config was created with a cooldown of 100 seconds, and `sol1` for the staker. -/

example : lastAsked linesTo13 (·.cooldownTime?) = some 100 ∧ lastAsked linesTo13 (·.limit?) = some 5000 ∧
    lastAsked linesTo13 (·.authority?) = some configAuth ∧ lastAsked linesTo13 (·.owner? sol1) = some staker := by decide +kernel

example : (configAt w13 cfg).map (·.cooldownTime) = some 100 := by decide +kernel

/-- Later the config authority changes the cooldown to 200 seconds, and then the authorities are given up. -/
example : ∃ J l, Journal Witness.env cfg w19 (J ++ l :: []) ∧ l.op.cooldownTime? = some 200 ∧ ∀ t, l.op ≠ .create t := by
  obtain ⟨J, j⟩ := C129_there_is_a_journal r18 cfg
  refine ⟨J, ⟨ixUpdate.ctx.signer, o2.now, .setCooldownTime 200⟩, ?_, rfl, by simp⟩
  have h : exec Witness.env o2 w18 ixUpdate = .ok w19 := by unfold w19; exact ok_after ok18
  have ha : asksFor Witness.env o2 w18 ixUpdate cfg (.setCooldownTime 200) := by
    show ixUpdate.decoded = _
    decide +kernel
  exact .line j o2_ok h (by decide +kernel) ha

example : ∃ J l, Journal Witness.env cfg w21 (J ++ l :: []) ∧ l.op.slashAuthority? = some .default ∧ ∀ t, l.op ≠ .create t := by
  obtain ⟨J, j⟩ := C129_there_is_a_journal r20 cfg
  refine ⟨J, ⟨ixSetSlash.ctx.signer, o2.now, .setSlashAuthority .default⟩, ?_, rfl, by simp⟩
  have h : exec Witness.env o2 w20 ixSetSlash = .ok w21 := by unfold w21; exact ok_after ok20
  exact .line j o2_ok h (by decide +kernel) ⟨by decide +kernel, rfl⟩

end Verif.Props
