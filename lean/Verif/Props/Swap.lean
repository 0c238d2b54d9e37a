import Verif.SpecSwap
import Verif.Props.Book
import Verif.Props.State
/-!
# C128: the order of instructions about different stakes
-/

namespace Verif.Props

open Verif Verif.Witness

/-! ## The machine -/

private theorem frame {B C : Book} {signed : Key → Bool} {now : Nat} {op : Book.Op} (he : op.onEntries)
    (ht : B.terms = C.terms) (ha : ∀ k ∈ op.about, B.entry k = C.entry k) :
    (B.apply signed now op = none ∧ C.apply signed now op = none) ∨
    ∃ B' C', B.apply signed now op = some B' ∧ C.apply signed now op = some C' ∧ B'.terms = B.terms ∧ C'.terms = C.terms ∧
      (∀ k ∈ op.about, B'.entry k = C'.entry k) ∧ (∀ k ∉ op.about, B'.entry k = B.entry k ∧ C'.entry k = C.entry k) := by
  cases op with
  | settle => exact Or.inr ⟨B, C, rfl, rfl, rfl, rfl, fun k hk => by simp [Book.Op.about] at hk, fun _ _ => ⟨rfl, rfl⟩⟩
  | openEntry k owner =>
    have e := ha k (by simp [Book.Op.about])
    simp only [Book.apply, ht, e]
    split_ifs
    · exact Or.inr ⟨_, _, rfl, rfl, ht, rfl, fun l hl => by simp [Book.Op.about] at hl; simp [Book.put, hl],
        fun l hl => by simp [Book.Op.about] at hl; simp [Book.put, hl]⟩
    · exact Or.inl ⟨rfl, rfl⟩
  | handOver k owner =>
    have e := ha k (by simp [Book.Op.about])
    simp only [Book.apply, e, Option.bind_eq_bind]
    cases C.entry k with
    | none => exact Or.inl ⟨rfl, rfl⟩
    | some x =>
      exact Or.inr ⟨_, _, rfl, rfl, rfl, rfl, fun l hl => by simp [Book.Op.about] at hl; simp [Book.put, hl],
        fun l hl => by simp [Book.Op.about] at hl; simp [Book.put, hl]⟩
  | deposit k n =>
    have e := ha k (by simp [Book.Op.about])
    simp only [Book.apply, e, Option.bind_eq_bind]
    cases C.entry k with
    | none => exact Or.inl ⟨rfl, rfl⟩
    | some x =>
      simp only [Option.bind_some]
      split_ifs
      · exact Or.inr ⟨_, _, rfl, rfl, rfl, rfl, fun l hl => by simp [Book.Op.about] at hl; simp [Book.put, hl],
          fun l hl => by simp [Book.Op.about] at hl; simp [Book.put, hl]⟩
      · exact Or.inl ⟨rfl, rfl⟩
  | withdraw k n =>
    have e := ha k (by simp [Book.Op.about])
    simp only [Book.apply, e, ht, Option.bind_eq_bind]
    cases hC : C.terms with
    | none => exact Or.inl ⟨rfl, rfl⟩
    | some t =>
      cases C.entry k with
      | none => exact Or.inl ⟨rfl, rfl⟩
      | some x =>
        simp only [Option.bind_some]
        split_ifs
        · exact Or.inr ⟨_, _, rfl, rfl, ht.trans hC, hC, fun l hl => by simp [Book.Op.about] at hl; simp [Book.put, hl],
            fun l hl => by simp [Book.Op.about] at hl; simp [Book.put, hl]⟩
        · exact Or.inl ⟨rfl, rfl⟩
  | slash k n =>
    have e := ha k (by simp [Book.Op.about])
    simp only [Book.apply, e, ht, Option.bind_eq_bind]
    cases hC : C.terms with
    | none => exact Or.inl ⟨rfl, rfl⟩
    | some t =>
      cases C.entry k with
      | none => exact Or.inl ⟨rfl, rfl⟩
      | some x =>
        simp only [Option.bind_some]
        split_ifs
        · exact Or.inr ⟨_, _, rfl, rfl, ht.trans hC, hC, fun l hl => by simp [Book.Op.about] at hl; simp [Book.put, hl],
            fun l hl => by simp [Book.Op.about] at hl; simp [Book.put, hl]⟩
        · exact Or.inl ⟨rfl, rfl⟩
  | move k l n =>
    have e := ha k (by simp [Book.Op.about])
    have f := ha l (by simp [Book.Op.about])
    simp only [Book.apply, e, f, Option.bind_eq_bind]
    cases C.entry k with
    | none => exact Or.inl ⟨rfl, rfl⟩
    | some x =>
      cases C.entry l with
      | none => exact Or.inl ⟨rfl, rfl⟩
      | some y =>
        simp only [Option.bind_some]
        split_ifs
        · refine Or.inr ⟨_, _, rfl, rfl, rfl, rfl, fun m hm => ?_, fun m hm => ?_⟩
          · simp only [Book.Op.about, List.mem_cons, List.not_mem_nil, or_false] at hm
            simp only [Book.put]
            rcases hm with rfl | rfl <;> split_ifs <;> simp_all
          · simp only [Book.Op.about, List.mem_cons, List.not_mem_nil, or_false, not_or] at hm
            simp [Book.put, hm.1, hm.2]
        · exact Or.inl ⟨rfl, rfl⟩
  | _ => exact he.elim

private theorem Book_ext {B C : Book} (ht : B.terms = C.terms) (he : ∀ k, B.entry k = C.entry k) : B = C := by
  obtain ⟨t, e⟩ := B
  obtain ⟨t', e'⟩ := C
  have : e = e' := funext he
  cases ht; cases this; rfl

/-- **C128.** In the machine of C123 two operations about different entries may be done in either order: they are allowed in the one
exactly when they are allowed in the other, and the book in the end is the same. -/
theorem C128_machine (B : Book) {s1 s2 : Key → Bool} {n1 n2 : Nat} {op1 op2 : Book.Op} (h1 : op1.onEntries) (h2 : op2.onEntries)
    (hd : ∀ k ∈ op1.about, k ∉ op2.about) :
    ((B.apply s1 n1 op1).bind fun B' => B'.apply s2 n2 op2) = ((B.apply s2 n2 op2).bind fun B' => B'.apply s1 n1 op1) := by
  rcases frame (signed := s1) (now := n1) (B := B) (C := B) h1 rfl fun _ _ => rfl with ⟨e1, _⟩ | ⟨X, X', e1, e1', tX, _, _, oX⟩
  · rcases frame (signed := s2) (now := n2) (B := B) (C := B) h2 rfl fun _ _ => rfl with ⟨e2, _⟩ | ⟨Y, _, e2, _, tY, _, _, oY⟩
    · rw [e1, e2]; rfl
    · rw [e1, e2]
      rcases frame (signed := s1) (now := n1) (B := B) (C := Y) h1 tY.symm fun k hk => ((oY k (hd k hk)).1).symm with
        ⟨_, e3⟩ | ⟨_, _, e3, _⟩
      · simp only [Option.bind_none, Option.bind_some, e3]
      · rw [e1] at e3; simp at e3
  · have hX : X' = X := by rw [e1] at e1'; exact (Option.some.inj e1').symm
    subst hX
    rcases frame (signed := s2) (now := n2) (B := B) (C := X') h2 tX.symm
      fun k hk => ((oX k fun hk' => hd k hk' hk).1).symm with ⟨e2, e3⟩ | ⟨Y, Z, e2, e3, tY, tZ, aY, oY⟩
    · rw [e1, e2]; simp only [Option.bind_none, Option.bind_some, e3]
    · rcases frame (signed := s1) (now := n1) (B := B) (C := Y) h1 tY.symm fun k hk => ((oY k (hd k hk)).1).symm with
        ⟨e4, _⟩ | ⟨X2, V, e4, e5, _, tV, aV, oV⟩
      · rw [e1] at e4; simp at e4
      · rw [e1] at e4; cases e4
        rw [e1, e2]
        simp only [Option.bind_some, e3, e5, Option.some.injEq]
        refine Book_ext (by rw [tZ, tX, tV, tY]) fun k => ?_
        by_cases k1 : k ∈ op1.about
        · rw [(oY k (hd k k1)).2, aV k k1]
        · by_cases k2 : k ∈ op2.about
          · rw [(oV k k1).2, aY k k2]
          · rw [(oV k k1).2, (oY k k2).2, (oY k k2).1, (oX k k1).1]

/-! ## The program -/

variable {env : Env} {o ox oy ox' oy' : Oracle} {w w' wx wy wxy wyx : World} {ix x y : Ix} {ck sk : Key}

/-- What an instruction about stakes does to the book at `ck`. -/
private def opAt (ix : Ix) (ck : Key) : Book.Op :=
  if ix.config = some ck then
    match ix.decoded with
    | some (.validatorStakeTokens n) | some (.solStakerStakeTokens n) => .deposit ((ix.acct 3).getD ck) n
    | some (.unstakeTokens n) => .withdraw ((ix.acct 3).getD ck) n
    | some (.slashValidatorStake n) | some (.slashSolStakerStake n) => .slash ((ix.acct 1).getD ck) n
    | some (.solStakerMoveTokens n) => .move ((ix.acct 3).getD ck) ((ix.acct 4).getD ck) n
    | _ => .settle
  else .settle

private theorem opAt_onEntries : (opAt ix ck).onEntries := by
  unfold opAt
  split
  · split <;> trivial
  · trivial

private theorem step (R : Reachable env w) (O : o.Ok) (h : exec env o w ix = .ok w') (hi : aboutStakes ix) :
    (bookOf w ck).apply ix.ctx.signer o.now (opAt ix ck) = some (bookOf w' ck) ∧ ∀ k ∈ (opAt ix ck).about, k ∈ stakesOf ix := by
  obtain ⟨ck', op, hck, ha, hB, ho⟩ := C123_program_is_the_machine R O h
  by_cases e : ck = ck'
  · subst e
    have key : opAt ix ck = op ∧ ∀ k ∈ op.about, k ∈ stakesOf ix := by
      unfold opAt stakesOf
      rw [if_pos hck]
      unfold aboutStakes at hi
      rcases hi with ⟨n, hi⟩ | ⟨n, hi⟩ | ⟨n, hi⟩ | ⟨n, hi⟩ | ⟨n, hi⟩ | ⟨n, hi⟩ | hi | hi | hi
      · cases op <;> simp [asksFor, hi] at ha
        obtain ⟨rfl, h3⟩ := ha
        simp [hi, h3, Book.Op.about]
      · cases op <;> simp [asksFor, hi] at ha
        obtain ⟨rfl, h3⟩ := ha
        simp [hi, h3, Book.Op.about]
      · cases op <;> simp [asksFor, hi] at ha
        obtain ⟨rfl, h3⟩ := ha
        simp [hi, h3, Book.Op.about]
      · cases op <;> simp [asksFor, hi] at ha
        obtain ⟨rfl, h3⟩ := ha
        simp [hi, h3, Book.Op.about]
      · cases op <;> simp [asksFor, hi] at ha
        obtain ⟨rfl, h3⟩ := ha
        simp [hi, h3, Book.Op.about]
      · cases op <;> simp [asksFor, hi] at ha
        obtain ⟨rfl, h3, h4⟩ := ha
        simp [hi, h3, h4, Book.Op.about]
      · cases op <;> simp [asksFor, hi] at ha
        simp [hi, Book.Op.about]
      · cases op <;> simp [asksFor, hi] at ha
        simp [hi, Book.Op.about]
      · cases op <;> simp [asksFor, hi] at ha
        simp [hi, Book.Op.about]
    rw [key.1]
    exact ⟨hB, key.2⟩
  · have hne : ix.config ≠ some ck := by rw [hck]; simpa using fun h => e h.symm
    unfold opAt
    rw [if_neg hne, ho ck e]
    exact ⟨rfl, fun k hk => by simp [Book.Op.about] at hk⟩

/-- **C128.** Two instructions about different stake accounts: whichever runs first, in the end every config has the same terms and
every stake account the same owner, tokens and lock. -/
theorem C128_any_order (R : Reachable env w) (Ox : ox.Ok) (Oy : oy.Ok) (Ox' : ox'.Ok) (Oy' : oy'.Ok)
    (hx : exec env ox w x = .ok wx) (hxy : exec env oy wx y = .ok wxy)
    (hy : exec env oy' w y = .ok wy) (hyx : exec env ox' wy x = .ok wyx)
    (tx : ox'.now = ox.now) (ty : oy'.now = oy.now)
    (ix : aboutStakes x) (iy : aboutStakes y) (hd : ∀ k ∈ stakesOf x, k ∉ stakesOf y) (ck : Key) :
    bookOf wxy ck = bookOf wyx ck := by
  obtain ⟨a1, b1⟩ := step (ck := ck) R Ox hx ix
  obtain ⟨a2, b2⟩ := step (ck := ck) (.exec R Ox hx) Oy hxy iy
  obtain ⟨a3, _⟩ := step (ck := ck) R Oy' hy iy
  obtain ⟨a4, _⟩ := step (ck := ck) (.exec R Oy' hy) Ox' hyx ix
  rw [ty] at a3
  rw [tx] at a4
  have := C128_machine (bookOf w ck) (s1 := x.ctx.signer) (s2 := y.ctx.signer) (n1 := ox.now) (n2 := oy.now)
    (op1 := opAt x ck) (op2 := opAt y ck) opAt_onEntries opAt_onEntries fun k h1 h2 => hd k (b1 k h1) (b2 k h2)
  rw [a1, a3, Option.bind_some, Option.bind_some, a2, a4] at this
  exact Option.some.inj this

private theorem record_same (R : Reachable env w) (O : o.Ok) (h : exec env o w ix = .ok w')
    (hi : ix.decoded ≠ some .harvestSolStakerRewards) {s : SolStakerStake} (hs : solStakerAt w sk = some s) :
    ∃ s', solStakerAt w' sk = some s' ∧ s'.lamports = s.lamports := by
  obtain ⟨s', hs', _⟩ := (effect_ident (reachable_inv R) (exec_effect (reachable_inv R) O h)).2 sk s hs
  refine ⟨s', hs', ?_⟩
  by_contra hne
  exact hi (C49_record_changes_only_by_harvest R O h hs hs' (Or.inl hne)).1

/-- **C128.** If neither is the harvest of a SOL staker, the effective stakes of all SOL stakers are the same too. -/
theorem C128_same_effective (R : Reachable env w) (Ox : ox.Ok) (Oy : oy.Ok) (Ox' : ox'.Ok) (Oy' : oy'.Ok)
    (hx : exec env ox w x = .ok wx) (hxy : exec env oy wx y = .ok wxy)
    (hy : exec env oy' w y = .ok wy) (hyx : exec env ox' wy x = .ok wyx)
    (tx : ox'.now = ox.now) (ty : oy'.now = oy.now)
    (ix : aboutStakes x) (iy : aboutStakes y) (hd : ∀ k ∈ stakesOf x, k ∉ stakesOf y)
    (nx : x.decoded ≠ some .harvestSolStakerRewards) (ny : y.decoded ≠ some .harvestSolStakerRewards)
    {s : SolStakerStake} (hs : solStakerAt w sk = some s) :
    ∃ s1 s2, solStakerAt wxy sk = some s1 ∧ solStakerAt wyx sk = some s2 ∧ s1.del.effective = s2.del.effective := by
  obtain ⟨ck, hbel⟩ : ∃ ck, belongs sk ck := by
    obtain ⟨ck, h, _⟩ := C27_solStaker_address R hs
    exact ⟨ck, Or.inr ⟨_, h⟩⟩
  obtain ⟨s0, hs0, e0⟩ := record_same R Ox hx nx hs
  obtain ⟨s1, hs1, e1⟩ := record_same (.exec R Ox hx) Oy hxy ny hs0
  obtain ⟨s2, hs2, e2⟩ := record_same R Oy' hy ny hs
  obtain ⟨s3, hs3, e3⟩ := record_same (.exec R Oy' hy) Ox' hyx nx hs2
  refine ⟨s1, s3, hs1, hs3, ?_⟩
  rw [C03_solStaker_effective_exact (.exec (.exec R Ox hx) Oy hxy) hs1,
    C03_solStaker_effective_exact (.exec (.exec R Oy' hy) Ox' hyx) hs3, e1, e0, e3, e2]
  have := congrFun (congrArg Book.entry (C128_any_order R Ox Oy Ox' Oy' hx hxy hy hyx tx ty ix iy hd ck)) sk
  simp only [bookOf, if_pos hbel, stakeAt_of_solStaker hs1, stakeAt_of_solStaker hs3, Option.map_some, Option.some.injEq,
    Entry.mk.injEq] at this
  rw [this.2.1]

/-! In the example history: two stakes and two slashes, in either order. -/

example : okB o1 w5 ixStakeVal1 = true ∧ okB o1 (after o1 w5 ixStakeVal1) ixStakeSol1 = true ∧
    okB o1 w5 ixStakeSol1 = true ∧ okB o1 (after o1 w5 ixStakeSol1) ixStakeVal1 = true ∧
    (∀ k ∈ stakesOf ixStakeVal1, k ∉ stakesOf ixStakeSol1) ∧
    (bookOf (after o1 (after o1 w5 ixStakeSol1) ixStakeVal1) cfg).entry sol1 = some ⟨staker, 500, 0⟩ := by decide +kernel

example : okB o2 w14 ixSlashVal1 = true ∧ okB o2 (after o2 w14 ixSlashVal1) ixSlashSol2 = true ∧
    okB o2 w14 ixSlashSol2 = true ∧ okB o2 (after o2 w14 ixSlashSol2) ixSlashVal1 = true ∧
    (∀ k ∈ stakesOf ixSlashVal1, k ∉ stakesOf ixSlashSol2) ∧
    (bookOf (after o2 (after o2 w14 ixSlashSol2) ixSlashVal1) cfg).entry sol2 =
      (bookOf (after o2 (after o2 w14 ixSlashVal1) ixSlashSol2) cfg).entry sol2 := by decide +kernel

/-! With the same stake account the order does matter: of 400 tokens, a half may be withdrawn. A withdrawal of 200 is allowed before
a slash of 100, and not after it. -/

example : let B : Book := ⟨some ⟨.raw 1, .raw 2, .raw 3, 100, 5000, 0⟩, fun k => if k = .raw 9 then some ⟨.raw 8, 400, 0⟩ else none⟩
    let s : Key → Bool := fun _ => true
    ((B.apply s 0 (.withdraw (.raw 9) 200)).bind fun B' => B'.apply s 0 (.slash (.raw 9) 100)).isSome = true ∧
    ((B.apply s 0 (.slash (.raw 9) 100)).bind fun B' => B'.apply s 0 (.withdraw (.raw 9) 200)).isSome = false := by
  decide +kernel

end Verif.Props
