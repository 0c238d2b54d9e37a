import Verif.SpecBook
import Verif.Props.Exact
/-!
# C123: the program is the machine of `Verif/SpecBook.lean`
-/

namespace Verif.Props

open Verif Verif.Witness

variable {env : Env} {o : Oracle} {w w' : World} {ix : Ix} {ck ck' : Key}

/-- The terms a config account states. -/
private def termsOf (c : Config) : Terms :=
  ⟨c.authority, c.slashAuthority, c.vault, c.cooldownTime, c.maxBps, c.syncRewards⟩

private def entryOf (d : Delegation) : Entry := ⟨d.authority, d.staked, d.cooldown⟩

private theorem book_ext {A B : Book} (h : A.terms = B.terms) (h' : ∀ k, A.entry k = B.entry k) : A = B := by
  cases A; cases B
  simp only at h h'
  rw [h, funext h']

private theorem terms_of {c : Config} (h : configAt w ck = some c) : (bookOf w ck).terms = some (termsOf c) := by
  simp [bookOf, h, termsOf]

private theorem terms_none (h : configAt w ck = none) : (bookOf w ck).terms = none := by simp [bookOf, h]

private theorem entry_of {k : Key} (hb : belongs k ck) {d : Delegation} (h : stakeAt w k = some d) :
    (bookOf w ck).entry k = some (entryOf d) := by
  simp [bookOf, hb, h, entryOf]

private theorem entry_none {k : Key} (h : stakeAt w k = none) : (bookOf w ck).entry k = none := by
  simp [bookOf, h]

private theorem entry_out {k : Key} (h : ¬ belongs k ck) : (bookOf w ck).entry k = none := by
  simp [bookOf, h]

private theorem termsOf_same {c c' : Config} (h : SameSettings c c') : termsOf c' = termsOf c := by
  unfold termsOf
  rw [h.authority, h.slashAuthority, h.vault, h.cooldownTime, h.maxBps, h.syncRewards]

/-- Books that rest on equal state are equal. -/
private theorem book_congr (hc : st w' ck = st w ck) (h : ∀ k, belongs k ck → st w' k = st w k) : bookOf w' ck = bookOf w ck := by
  refine book_ext ?_ fun k => ?_
  · simp only [bookOf]; rw [configAt_congr hc]
  · simp only [bookOf]
    split_ifs with hb
    · rw [stakeAt_congr (h k hb)]
    · rfl

private theorem Quiet.terms {T : Key → Prop} (Q : Quiet T ck w w') : (bookOf w' ck).terms = (bookOf w ck).terms := by
  obtain ⟨c, c', h, h', s⟩ := Q.config
  rw [terms_of h, terms_of h', termsOf_same s]

private theorem Quiet.entry {T : Key → Prop} (Q : Quiet T ck w w') {k : Key} (hk : ¬ T k) :
    (bookOf w' ck).entry k = (bookOf w ck).entry k := by
  by_cases hb : belongs k ck
  · cases hd : stakeAt w k with
    | none => rw [entry_none hd, entry_none (Q.del_none hd)]
    | some d =>
      obtain ⟨d', hd', S⟩ := Q.del hd
      rw [entry_of hb hd, entry_of hb hd']
      unfold entryOf
      rw [S.authority, S.staked hk, S.cooldown hk]
  · rw [entry_out hb, entry_out hb]

/-- A config's address is not that of a stake account of another config, and stake accounts belong to one config. -/
private theorem Quiet.others {T : Key → Prop} (I : Inv env w) (I' : Inv env w') (Q : Quiet T ck w w') (hne : ck' ≠ ck) :
    bookOf w' ck' = bookOf w ck' := by
  refine book_ext ?_ fun k => ?_
  · cases hc : configAt w ck' with
    | none => rw [terms_none hc, terms_none (Q.config_none hc)]
    | some c =>
      obtain ⟨c', hc', _, he⟩ := Q.configAt I hc
      rw [terms_of hc, terms_of hc', he hne]
  · by_cases hb : belongs k ck'
    · have hnb : ¬ belongs k ck := fun h => hne (belongs_unique hb h)
      have hk : k ≠ ck := by
        rintro rfl
        obtain ⟨c, _, hc, _⟩ := Q.config
        have := I.config_key hc
        rw [hb.ofProgram] at this; simp at this
      simp only [bookOf]
      rw [stakeAt_congr (Q.other k hk hnb)]
    · rw [entry_out hb, entry_out hb]

/-- One address of the config `ck` written, a stake account of it. -/
private theorem book_put {k : Key} {D : Data} {d : Delegation} (hb : belongs k ck) (hD : D.del? = some d)
    (hck : ck.ofProgram = false) (h : st w' = stUpd (st w) k D) : bookOf w' ck = (bookOf w ck).put k (entryOf d) := by
  have hne : ck ≠ k := by rintro rfl; rw [hb.ofProgram] at hck; simp at hck
  refine book_ext ?_ fun k' => ?_
  · simp only [bookOf, Book.put]; rw [configAt_congr (w := w) (k := ck) (by rw [h, stUpd_ne hne])]
  · simp only [Book.put]
    split_ifs with e
    · subst e
      refine entry_of hb ?_
      rw [stakeAt_st, h, stUpd_same]; exact hD
    · simp only [bookOf]; rw [stakeAt_congr (w := w) (k := k') (by rw [h, stUpd_ne e])]

private theorem book_other {k : Key} {D : Data} {d : Delegation} (I : Inv env w) (hb : belongs k ck) (hD : D.del? = some d)
    (hne : ck' ≠ ck) (h : st w' = stUpd (st w) k D) : bookOf w' ck' = bookOf w ck' := by
  refine book_ext ?_ fun k' => ?_
  · by_cases e : ck' = k
    · subst e
      have h1 : configAt w ck' = none := by
        cases hc : configAt w ck' with
        | none => rfl
        | some c => have := I.config_key hc; rw [hb.ofProgram] at this; simp at this
      have h2 : configAt w' ck' = none := not_config_of_stake (d := d) (by rw [stakeAt_st, h, stUpd_same]; exact hD)
      rw [terms_none h1, terms_none h2]
    · simp only [bookOf]; rw [configAt_congr (w := w) (k := ck') (by rw [h, stUpd_ne e])]
  · by_cases hb' : belongs k' ck'
    · have e : k' ≠ k := by rintro rfl; exact hne (belongs_unique hb' hb)
      simp only [bookOf]; rw [stakeAt_congr (w := w) (k := k') (by rw [h, stUpd_ne e])]
    · rw [entry_out hb', entry_out hb']

/-- The config at `ck` written. -/
private theorem book_config {c : Config} (hck : ck.ofProgram = false) (h : st w' = stUpd (st w) ck (.config c)) :
    bookOf w' ck = { bookOf w ck with terms := some (termsOf c) } := by
  refine book_ext ?_ fun k => ?_
  · exact terms_of (st_config.1 (by rw [h, stUpd_same]))
  · by_cases hb : belongs k ck
    · have : k ≠ ck := by rintro rfl; rw [hb.ofProgram] at hck; simp at hck
      simp only [bookOf]; rw [stakeAt_congr (w := w) (k := k) (by rw [h, stUpd_ne this])]
    · rw [entry_out hb]; exact (entry_out hb).symm

private theorem book_config_other {c : Config} (hck : ck.ofProgram = false) (hne : ck' ≠ ck)
    (h : st w' = stUpd (st w) ck (.config c)) : bookOf w' ck' = bookOf w ck' := by
  refine book_congr (by rw [h, stUpd_ne hne]) fun k hk => ?_
  rw [h, stUpd_ne]
  rintro rfl
  rw [hk.ofProgram] at hck; simp at hck

/-- **C123.** What happens outside the program leaves every book as it is. -/
theorem C123_others_write_nothing (R : Reachable env w) (E : ExtStep w w') (ck : Key) : bookOf w' ck = bookOf w ck :=
  book_congr (ext_st (reachable_inv R) E ck) fun k _ => ext_st (reachable_inv R) E k

/-- One stake account of `ck` changed and the totals settled. -/
private theorem OneStake.book {sk : Key} {d d' : Delegation} (S : OneStake ck sk w w' d d') :
    bookOf w' ck = (bookOf w ck).put sk (entryOf d') := by
  refine book_ext (Quiet.terms S.quiet) fun k => ?_
  simp only [Book.put]
  split_ifs with e
  · subst e; exact entry_of S.bel S.after
  · exact Quiet.entry S.quiet e

private theorem OneStake.owner {sk : Key} {d d' : Delegation} (S : OneStake ck sk w w' d d') : d'.authority = d.authority := by
  obtain ⟨d2, h2, h3⟩ := S.quiet.del S.before
  rw [S.after] at h2; cases h2
  exact h3.authority

/-- **C123.** Whatever instruction succeeds, in whatever state the chain is in, is one operation of the machine, the one it asks
for, in the book of the config it names, and that operation is allowed by the machine; the books of all other configs stay as they
are. -/
theorem C123_program_is_the_machine (R : Reachable env w) (O : o.Ok) (h : exec env o w ix = .ok w') :
    ∃ ck op, ix.config = some ck ∧ asksFor env o w ix ck op ∧
      (bookOf w ck).apply ix.ctx.signer o.now op = some (bookOf w' ck) ∧ ∀ ck', ck' ≠ ck → bookOf w' ck' = bookOf w ck' := by
  have I := reachable_inv R
  have I' := reachable_inv (Reachable.exec R O h)
  cases exec_effect I O h with
  | initializeConfig ck c hi h0 hn hck hst =>
    obtain ⟨slash, auth, t, b, y, hash, hi⟩ := hi
    obtain ⟨a, rest, hl, hr⟩ := ran_initializeConfig h hi
    obtain ⟨hcn, _, hc', _, _, _, _, hb, _⟩ := C46_new_config h hi h0 (mint := a.mint) (vault := a.vault)
      (by simp [Ix.acct, hl, InitializeConfigAccts.list]) (by simp [Ix.acct, hl, InitializeConfigAccts.list])
    have e : configAt w' ck = some c := st_config.1 (by rw [hst, stUpd_same])
    rw [hc', Option.some.injEq] at e
    refine ⟨ck, .create (termsOf c), by simp [Ix.config, hi, h0], ⟨slash, auth, hash, ?_⟩, ?_,
      fun ck' hne => book_config_other hck hne hst⟩
    · rw [← e]
      refine ⟨by simpa [termsOf] using hi, rfl, rfl, ?_⟩
      simp [Ix.acct, hl, InitializeConfigAccts.list, termsOf]
    · rw [book_config hck hst, Book.apply, if_pos]
      exact ⟨terms_none hcn, by rw [← e]; exact hb⟩
  | initializeValidatorStake ck vote wd c hi h0 hc ho hd hn hst ha =>
    have hck := I.config_key hc
    have hb : belongs (.validatorPda vote ck) ck := by simp [belongs]
    refine ⟨ck, .openEntry (.validatorPda vote ck) wd, by simp [Ix.config, hi, h0], Or.inl ⟨hi, vote, ha, rfl, ho, hd⟩, ?_,
      fun ck' hne => book_other I hb rfl hne hst⟩
    rw [book_put hb rfl hck hst, Book.apply, if_pos]
    · rfl
    · exact ⟨by rw [terms_of hc]; simp, entry_none (stakeAt_none_of_st hn)⟩
  | initializeSolStakerStake ck native c v vs hi h0 hc hv hvs hn hst ha =>
    have hck := I.config_key hc
    have hb : belongs (.solStakerPda native ck) ck := by simp [belongs]
    have hb' : belongs (.validatorPda v.delegatedVote ck) ck := by simp [belongs]
    have hd := stakeAt_of_validator hvs
    have hne' : Key.validatorPda v.delegatedVote ck ≠ .solStakerPda native ck := by simp
    refine ⟨ck, .openEntry (.solStakerPda native ck) v.withdrawer, by simp [Ix.config, hi, h0],
      Or.inr ⟨hi, native, v, ha, rfl, hv, rfl⟩, ?_, fun ck' hne => ?_⟩
    · rw [Book.apply, if_pos ⟨by rw [terms_of hc]; simp, entry_none (stakeAt_none_of_st hn)⟩, Option.some.injEq]
      refine book_ext ?_ fun k => ?_
      · simp only [Book.put, bookOf]
        have n1 : ck ≠ .solStakerPda native ck := by intro e; rw [e, hb.ofProgram] at hck; simp at hck
        have n2 : ck ≠ .validatorPda v.delegatedVote ck := by intro e; rw [e, hb'.ofProgram] at hck; simp at hck
        rw [configAt_congr (w := w) (w' := w') (k := ck) (by rw [hst, stUpd_ne n2, stUpd_ne n1])]
      · simp only [Book.put]
        split_ifs with e
        · subst e
          refine (entry_of hb (d := freshDel v.withdrawer v.delegatedVote) ?_).symm
          rw [stakeAt_st, hst, stUpd_ne (Ne.symm hne'), stUpd_same]; rfl
        · by_cases e2 : k = .validatorPda v.delegatedVote ck
          · subst e2
            rw [entry_of hb' hd, entry_of hb' (d := vs.del)]
            rw [stakeAt_st, hst, stUpd_same]; rfl
          · simp only [bookOf]
            rw [stakeAt_congr (w := w) (w' := w') (k := k) (by rw [hst, stUpd_ne e2, stUpd_ne e])]
    · refine book_ext ?_ fun k => ?_
      · by_cases hp : ck'.ofProgram = true
        · have none : ∀ {x}, Inv env x → configAt x ck' = none := by
            intro x Ix
            cases hx : configAt x ck' with
            | none => rfl
            | some c => have := Ix.config_key hx; rw [hp] at this; simp at this
          rw [terms_none (none I), terms_none (none I')]
        · have n1 : ck' ≠ .solStakerPda native ck := by rintro rfl; exact hp hb.ofProgram
          have n2 : ck' ≠ .validatorPda v.delegatedVote ck := by rintro rfl; exact hp hb'.ofProgram
          simp only [bookOf]
          rw [configAt_congr (w := w) (w' := w') (k := ck') (by rw [hst, stUpd_ne n2, stUpd_ne n1])]
      · by_cases hk : belongs k ck'
        · have e1 : k ≠ .solStakerPda native ck := by rintro rfl; exact hne (belongs_unique hk hb)
          have e2 : k ≠ .validatorPda v.delegatedVote ck := by rintro rfl; exact hne (belongs_unique hk hb')
          simp only [bookOf]
          rw [stakeAt_congr (w := w) (w' := w') (k := k) (by rw [hst, stUpd_ne e2, stUpd_ne e1])]
        · rw [entry_out hk, entry_out hk]
  | setAuthority ck new c c' t hi h0 hc ht hst =>
    have hck := I.config_key hc
    obtain ⟨a, rest, hl, hr⟩ := ran_setAuthority h hi
    have h2 : ix.acct 2 = some a.newAuthority := by simp [Ix.acct, hl, SetAuthorityAccts.list]
    obtain ⟨c1, hc1, hc', _⟩ := C47_set_authority h hi h0 h2
    rw [hc] at hc1; cases hc1
    have e : configAt w' ck = some c' := st_config.1 (by rw [hst, stUpd_same])
    rw [hc', Option.some.injEq] at e
    cases t with
    | config =>
      refine ⟨ck, .setAuthority a.newAuthority, by simp [Ix.config, hi, h0], ⟨hi, h2⟩, ?_,
        fun ck' hne => book_config_other hck hne hst⟩
      rw [book_config hck hst, Book.apply, terms_of hc]
      simp only [Option.bind_eq_bind, Option.bind_some]
      rw [if_pos ⟨ht.1, ht.2.1⟩, ← e]; rfl
    | slash =>
      refine ⟨ck, .setSlashAuthority a.newAuthority, by simp [Ix.config, hi, h0], ⟨hi, h2⟩, ?_,
        fun ck' hne => book_config_other hck hne hst⟩
      rw [book_config hck hst, Book.apply, terms_of hc]
      simp only [Option.bind_eq_bind, Option.bind_some]
      rw [if_pos ⟨ht.1, ht.2.1⟩, ← e]; rfl
  | updateConfig ck c f hi h0 hc ha hs hst =>
    have hck := I.config_key hc
    have e : configAt w' ck = some (c.updated f) := st_config.1 (by rw [hst, stUpd_same])
    have hb := (I'.config ck _ e).bps
    cases f with
    | cooldownTimeSeconds v =>
      refine ⟨ck, .setCooldownTime v, by simp [Ix.config, hi, h0], hi, ?_, fun ck' hne => book_config_other hck hne hst⟩
      rw [book_config hck hst, Book.apply, terms_of hc]
      simp only [Option.bind_eq_bind, Option.bind_some]
      rw [if_pos ⟨ha, hs⟩]; rfl
    | maxDeactivationBasisPoints v =>
      refine ⟨ck, .setLimit v, by simp [Ix.config, hi, h0], hi, ?_, fun ck' hne => book_config_other hck hne hst⟩
      rw [book_config hck hst, Book.apply, terms_of hc]
      simp only [Option.bind_eq_bind, Option.bind_some]
      rw [if_pos ⟨ha, hs, hb⟩]; rfl
    | syncRewardsLamports v =>
      refine ⟨ck, .setSyncRewards v, by simp [Ix.config, hi, h0], hi, ?_, fun ck' hne => book_config_other hck hne hst⟩
      rw [book_config hck hst, Book.apply, terms_of hc]
      simp only [Option.bind_eq_bind, Option.bind_some]
      rw [if_pos ⟨ha, hs⟩]; rfl
  | validatorSyncAuthority ck vote wd v hi h0 hc hv ho hd hst ha =>
    obtain ⟨c, hc⟩ := Option.isSome_iff_exists.1 hc
    have hck := I.config_key hc
    have hb : belongs (.validatorPda vote ck) ck := by simp [belongs]
    refine ⟨ck, .handOver (.validatorPda vote ck) wd, by simp [Ix.config, hi, h0], ⟨hi, vote, ha, rfl, ho, hd⟩, ?_,
      fun ck' hne => book_other I hb rfl hne hst⟩
    rw [book_put hb rfl hck hst, Book.apply, entry_of hb (stakeAt_of_validator hv)]
    rfl
  | settle ck hi h0 Q =>
    refine ⟨ck, .settle, h0, hi, ?_, fun ck' hne => Quiet.others I I' Q hne⟩
    rw [Book.apply, Option.some.injEq]
    exact (book_ext (Quiet.terms Q) fun k => Quiet.entry Q (fun h => h)).symm
  | stake ck sk n d d' hi h0 h3 S e1 e2 =>
    refine ⟨ck, .deposit sk n, ?_, ⟨hi, h3⟩, ?_, fun ck' hne => Quiet.others I I' S.quiet hne⟩
    · rcases hi with hi | hi <;> simp [Ix.config, hi, h0]
    · have hn : 0 < n := by
        rcases hi with hi | hi
        · obtain ⟨a, rest, _, hr⟩ := ran_validatorStakeTokens h hi
          obtain ⟨_, _, _, _, _, _, _, _, _, _, _, _, _, S⟩ := validatorStakeTokens_ok hr
          exact S.pos
        · obtain ⟨a, rest, _, hr⟩ := ran_solStakerStakeTokens h hi
          obtain ⟨_, _, _, _, _, _, _, _, _, _, _, _, _, S⟩ := solStakerStakeTokens_ok hr
          exact S.pos
      rw [OneStake.book S, Book.apply, entry_of S.bel S.before]
      simp only [Option.bind_eq_bind, Option.bind_some, if_pos hn, entryOf, e1, e2, OneStake.owner S]
  | slash ck sk n d d' hi h0 h1 S =>
    obtain ⟨c, hc, hs1, hs2⟩ := S.signed
    refine ⟨ck, .slash sk n, ?_, ⟨hi, h1⟩, ?_, fun ck' hne => Quiet.others I I' S.one.quiet hne⟩
    · rcases hi with hi | hi <;> simp [Ix.config, hi, h0]
    · have hn : 0 < n := by
        rcases hi with hi | hi
        · obtain ⟨a, rest, _, hr⟩ := ran_slashValidatorStake h hi
          obtain ⟨_, _, _, _, _, _, _, _, _, _, S⟩ := slashValidatorStake_ok hr
          exact S.pos
        · obtain ⟨a, rest, _, hr⟩ := ran_slashSolStakerStake h hi
          obtain ⟨_, _, _, _, _, _, _, _, _, _, S⟩ := slashSolStakerStake_ok hr
          exact S.pos
      rw [OneStake.book S.one, Book.apply, entry_of S.one.bel S.one.before, terms_of hc]
      simp only [Option.bind_eq_bind, Option.bind_some]
      rw [if_pos ⟨hs1, hs2, hn⟩]
      simp only [entryOf, S.staked, S.cooldown, OneStake.owner S.one]
  | unstake ck sk n c d d' hi h0 h3 S =>
    refine ⟨ck, .withdraw sk n, by simp [Ix.config, hi, h0], ⟨hi, h3⟩, ?_, fun ck' hne => Quiet.others I I' S.one.quiet hne⟩
    rw [OneStake.book S.one, Book.apply, entry_of S.one.bel S.one.before, terms_of S.config]
    simp only [Option.bind_eq_bind, Option.bind_some]
    rw [if_pos ⟨S.signed, S.ready, S.le, (Nat.le_div_iff_mul_le (by decide)).1 S.limit⟩]
    simp only [entryOf, S.staked, S.cooldown, OneStake.owner S.one]
    rfl
  | move ck sk tk n ds dt ds' dt' hi h0 h3 h4 M =>
    refine ⟨ck, .move sk tk n, by simp [Ix.config, hi, h0], ⟨hi, h3, h4⟩, ?_, fun ck' hne => Quiet.others I I' M.quiet hne⟩
    rw [Book.apply, entry_of M.belS M.s, entry_of M.belT M.t]
    simp only [Option.bind_eq_bind, Option.bind_some]
    rw [if_pos ⟨Ne.symm M.ne, M.same, M.sSigned, M.le⟩, Option.some.injEq]
    have as : ds'.authority = ds.authority := by
      obtain ⟨d2, h2, h3⟩ := M.quiet.del M.s
      rw [M.s'] at h2; cases h2
      exact h3.authority
    have at' : dt'.authority = dt.authority := by
      obtain ⟨d2, h2, h3⟩ := M.quiet.del M.t
      rw [M.t'] at h2; cases h2
      exact h3.authority
    refine book_ext (Quiet.terms M.quiet).symm fun k => ?_
    simp only [Book.put]
    split_ifs with e1 e2
    · subst e1
      rw [entry_of M.belT M.t']
      simp only [entryOf, M.tStaked, M.tCooldown, at']
    · subst e2
      rw [entry_of M.belS M.s']
      simp only [entryOf, M.sStaked, M.sCooldown, as]
    · exact (Quiet.entry M.quiet (by rintro (h | h); exacts [e2 h, e1 h])).symm

theorem genesis_book (G : Genesis w) : bookOf w ck = Book.empty := by
  refine book_ext (terms_none ?_) fun k => entry_none ?_
  · exact genesis_config G ck
  · cases e : stakeAt w k with
    | none => rfl
    | some d =>
      obtain ⟨h1, h2⟩ := stakeAt_eq.1 e
      obtain ⟨m, hm⟩ := G.owned k h1
      rw [hm] at h2; simp [Data.del?] at h2

/-- **C123.** So the book of every config, at any point of any history, is one that the operations of the machine lead to. -/
theorem C123_every_book (R : Reachable env w) (ck : Key) : Book.Reachable (bookOf w ck) := by
  induction R with
  | @genesis w G =>
    rw [genesis_book G]; exact .empty
  | ext R E ih => rw [C123_others_write_nothing R E]; exact ih
  | exec R O h ih =>
    obtain ⟨ck', op, _, _, h1, h2⟩ := C123_program_is_the_machine R O h
    by_cases e : ck = ck'
    · subst e; exact .apply ih h1
    · rw [h2 ck e]; exact ih

/-- **C123.** What holds of the empty book and is kept by every operation of the machine holds of every book of the program. -/
theorem C123_what_the_machine_keeps (R : Reachable env w) (ck : Key) {P : Book → Prop} (h0 : P Book.empty)
    (hs : ∀ B signed now op B', P B → B.apply signed now op = some B' → P B') : P (bookOf w ck) := by
  have B := C123_every_book R ck
  generalize bookOf w ck = b at B
  induction B with
  | empty => exact h0
  | apply _ h ih => exact hs _ _ _ _ _ ih h

/-! The machine at work, in the example history: a move takes 100 of 500 tokens of one entry to another, a withdrawal 150 of the
400 that are left, under a limit of one half, and locks the entry until 2000 + 100. -/

example : Reachable Witness.env w11 ∧ exec Witness.env o2 w11 ixMove = .ok w12 ∧ exec Witness.env o2 w12 ixUnstake = .ok w13 :=
  ⟨r11, by unfold w12; exact ok_after ok11, by unfold w13; exact ok_after ok12⟩

example : asksFor Witness.env o2 w11 ixMove cfg (.move sol1 sol2 100) ∧
    asksFor Witness.env o2 w12 ixUnstake cfg (.withdraw sol1 150) :=
  ⟨⟨by decide +kernel, by decide +kernel, by decide +kernel⟩, by decide +kernel, by decide +kernel⟩

example : (bookOf w11 cfg).entry sol1 = some ⟨staker, 500, 0⟩ ∧ (bookOf w12 cfg).entry sol1 = some ⟨staker, 400, 0⟩ ∧
    (bookOf w12 cfg).entry sol2 = some ⟨staker, 100, 0⟩ ∧ (bookOf w13 cfg).entry sol1 = some ⟨staker, 250, 2100⟩ ∧
    (bookOf w13 cfg).terms.map (fun t => (t.maxBps, t.cooldownTime)) = some (5000, 100) := by decide +kernel

/-! And what it refuses: the same withdrawal without the owner's signature, at once after the first, or of more than half. -/

example : ((bookOf w12 cfg).apply (fun _ => false) 2000 (.withdraw sol1 150)).isNone = true ∧
    ((bookOf w13 cfg).apply (fun _ => true) 2000 (.withdraw sol1 1)).isNone = true ∧
    ((bookOf w12 cfg).apply (fun _ => true) 2000 (.withdraw sol1 201)).isNone = true := by decide +kernel

/-- A use of the last theorem: entries only exist where there are terms. -/
example (R : Reachable env w) (ck : Key) : (bookOf w ck).terms = none → ∀ k, (bookOf w ck).entry k = none := by
  refine C123_what_the_machine_keeps R ck (P := fun B => B.terms = none → ∀ k, B.entry k = none) (fun _ _ => rfl) ?_
  intro B signed now op B' hB h
  cases ht : B.terms with
  | some t =>
    intro h'
    cases op <;> simp [Book.apply, ht, Option.bind_eq_some_iff] at h <;> grind [Book.put]
  | none =>
    have he := hB ht
    cases op <;> simp [Book.apply, ht, he] at h <;> grind [Book.put]

end Verif.Props
