import Verif.Spec.Transparent

namespace Spp
open Spec

theorem transparent_const (r : Res α) : Transparent (fun _ => r) := fun _ => .inr rfl

theorem transparent_bind {f : Build → Res α} {g : Build → α → Res β}
    (hf : Transparent f) (hg : ∀ a, Transparent (fun b => g b a)) :
    Transparent (fun b => f b >>= g b) := by
  intro b
  rcases hf b with ⟨k, hk⟩ | h
  · exact .inl ⟨k, by simp [hk]⟩
  · show _ ∨ (f b >>= g b) = (f (off b) >>= g (off b))
    rw [← h]
    cases hfb : f b with
    | ok a => simpa [hfb] using hg a b
    | trap k => simp [hfb]
    | ub => simp [hfb]

theorem transparent_assertAlways (c : Bool) : Transparent (fun b => assertAlways b c) := by
  intro b; exact .inr rfl

theorem transparent_assertDebug (c : Bool) : Transparent (fun b => assertDebug b c) := by
  intro b
  rcases b with ⟨_ | _, _ | _, _ | _⟩ <;> cases c <;> simp [assertDebug, assertAlways, off]

theorem transparent_assertNormal (c : Bool) : Transparent (fun b => assertNormal b c) := by
  intro b
  rcases b with ⟨_ | _, _ | _, _ | _⟩ <;> cases c <;> simp [assertNormal, off]

theorem transparent_foldN {f : Build → Nat → β → Res β} (n : Nat) (init : β)
    (h : ∀ k s, Transparent (fun b => f b k s)) : Transparent (fun b => foldN n (f b) init) := by
  induction n with
  | zero => exact transparent_const _
  | succ n ih => exact transparent_bind ih (fun a => h n a)

theorem transparent_ite {c : Prop} [Decidable c] {f g : Build → Res α}
    (hf : Transparent f) (hg : Transparent g) :
    Transparent (fun b => if c then f b else g b) := by
  by_cases h : c <;> simpa [h]

theorem transparentOp_pure (a : α) : TransparentOp (fun _ => (pure a : Op σ α)) :=
  fun _ _ => .inr rfl

theorem transparentOp_const (x : Op σ α) : TransparentOp (fun _ => x) :=
  fun _ _ => .inr rfl

theorem transparentOp_lift {f : Build → Res α} (h : Transparent f) :
    TransparentOp (fun b => (Op.lift (f b) : Op σ α)) := by
  intro b s
  rcases h b with ⟨k, hk⟩ | h
  · exact .inl ⟨k, by simp [hk]⟩
  · exact .inr (by simp [h])

theorem transparentOp_bind {f : Build → Op σ α} {g : Build → α → Op σ β}
    (hf : TransparentOp f) (hg : ∀ a, TransparentOp (fun b => g b a)) :
    TransparentOp (fun b => f b >>= g b) := by
  intro b s
  show (∃ k, ((f b >>= g b) s).1 = .trap k) ∨ (f b >>= g b) s = (f (off b) >>= g (off b)) s
  rw [Op.bind_run, Op.bind_run]
  rcases hf b s with ⟨k, hk⟩ | h
  · rcases hfb : f b s with ⟨r, s'⟩
    rw [hfb] at hk; simp at hk; subst hk
    exact .inl ⟨k, rfl⟩
  · rw [← h]
    rcases hfb : f b s with ⟨r, s'⟩
    cases r with
    | ok a => exact hg a b s'
    | trap k => exact .inl ⟨k, rfl⟩
    | ub => exact .inr rfl

theorem transparentOp_forN {body : Build → Nat → Op σ Unit} (n : Nat)
    (h : ∀ k, TransparentOp (fun b => body b k)) : TransparentOp (fun b => Op.forN n (body b)) := by
  induction n with
  | zero => exact transparentOp_const _
  | succ n ih =>
    exact transparentOp_bind (f := fun b => Op.forN n (body b)) (g := fun b _ => body b n) ih
      (fun _ => h n)

theorem transparentOp_ite {c : Prop} [Decidable c] {f g : Build → Op σ α}
    (hf : TransparentOp f) (hg : TransparentOp g) :
    TransparentOp (fun b => if c then f b else g b) := by
  by_cases h : c <;> simpa [h]

end Spp
