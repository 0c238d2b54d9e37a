import Verif.SpecCalls
import Verif.Lemmas.Dispatch
/-!
# Lemmas of C112: the program's own writing
-/

namespace Verif

variable {env : Env} {o : Oracle} {ctx : Ctx} {w w' w'' : World}

theorem Own.refl (w : World) : Own w w := fun _ => ⟨rfl, fun _ => ⟨rfl, Nat.le_refl _⟩⟩

theorem Own.trans (h : Own w w') (h' : Own w' w'') : Own w w'' := fun k => by
  obtain ⟨a, b⟩ := h k
  obtain ⟨a', b'⟩ := h' k
  refine ⟨a'.trans a, fun hk => ?_⟩
  obtain ⟨b1, b2⟩ := b hk
  obtain ⟨c1, c2⟩ := b' (a ▸ hk)
  exact ⟨c1.trans b1, b2.trans c2⟩

theorem setData_own {k : Key} {d : Data} (h : setData w k d = .ok w') : Own w w' := by
  simp only [setData, bind_ok, require_ok, exists_unit, pure_ok] at h
  obtain ⟨h, rfl⟩ := h
  intro x
  rw [World.set_apply]
  by_cases e : x = k
  · subst e
    rw [if_pos rfl]
    exact ⟨rfl, fun hx => ⟨h.resolve_right hx, Nat.le_refl _⟩⟩
  · rw [if_neg e]
    exact ⟨rfl, fun _ => ⟨rfl, Nat.le_refl _⟩⟩

theorem setLamports_own {k : Key} {n : Nat} (h : setLamports w k n = .ok w') : Own w w' := by
  simp only [setLamports, bind_ok, require_ok, exists_unit, pure_ok] at h
  obtain ⟨h, rfl⟩ := h
  intro x
  rw [World.set_apply]
  by_cases e : x = k
  · subst e
    rw [if_pos rfl]
    exact ⟨rfl, fun hx => ⟨rfl, h.resolve_right hx⟩⟩
  · rw [if_neg e]
    exact ⟨rfl, fun _ => ⟨rfl, Nat.le_refl _⟩⟩

theorem payKeeper_own {kp : Option Key} {n : Nat} (h : payKeeper w kp n = .ok w') : Own w w' := by
  cases kp with
  | none => simp only [payKeeper, Except.ok.injEq] at h; subst h; exact .refl _
  | some k =>
    simp only [payKeeper, bind_ok] at h
    obtain ⟨_, _, h⟩ := h
    exact setLamports_own h

theorem harvest_own {ck hk ak va sk : Key} {kp : Option Key} (h : harvest env w ck hk ak va sk kp = .ok w') : Own w w' := by
  simp only [harvest, bind_ok, require_ok, exists_unit, writeDel] at h
  obtain ⟨_, _, _, _, _, _, _, _, _, _, _, _, _, _, _, _, _, _, _, w1, h1, _, _, _, _, w2, h2, w3, h3, w4, h4, h5⟩ := h
  exact (payKeeper_own h1).trans <| (setLamports_own h2).trans <| (setLamports_own h3).trans <|
    (setData_own h4).trans (setData_own h5)

theorem syncEffective_own {ck sk : Key} {l m : Nat} (h : syncEffective w ck sk l m = .ok w') : Own w w' := by
  simp only [syncEffective, bind_ok, writeDel] at h
  obtain ⟨_, _, _, _, _, _, _, _, _, _, w1, h1, h2⟩ := h
  exact (setData_own h1).trans (setData_own h2)

theorem leaveValidator_own {a : HarvestSolStakerRewardsAccts} {s : SolStakerStake} (h : leaveValidator env w a s = .ok w') :
    Own w w' := by
  simp only [leaveValidator, ite_ok, bind_ok, require_ok, exists_unit, pure_ok] at h
  rcases h with ⟨_, _, _, _, _, w1, h1, _, _, _, _, w2, h2, h3⟩ | ⟨_, _, rfl⟩
  · exact (harvest_own h1).trans <| (setData_own h2).trans (syncEffective_own h3)
  · exact .refl _

theorem joinValidator_own {a : HarvestSolStakerRewardsAccts} {dv vote : Key} {n l : Nat}
    (h : joinValidator env w a dv n = .ok (w', vote, l)) : Own w w' := by
  simp only [joinValidator, ite_ok, bind_ok, require_ok, exists_unit, pure_ok, Prod.mk.injEq] at h
  rcases h with ⟨_, _, ⟨_, _, _, w1, h1, _, _, _, _, w2, h2, w3, h3, rfl, _⟩ | ⟨_, rfl, _⟩⟩ | ⟨_, rfl, _⟩
  · exact (harvest_own h1).trans <| (setData_own h2).trans (syncEffective_own h3)
  · exact .refl _
  · exact .refl _

theorem transferExcess_own {a b : Key} (h : transferExcess env w a b = .ok w') : Own w w' := by
  simp only [transferExcess, bind_ok, require_ok, exists_unit] at h
  obtain ⟨_, _, w1, h1, h2⟩ := h
  exact (setLamports_own h1).trans (setLamports_own h2)

end Verif
