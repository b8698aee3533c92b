import Verif.Lemmas.Rounding

/-!
# Substitution of expressions for symbols
-/

namespace Thunder

noncomputable section

namespace Expr

/-- Replaces the symbols. -/
def subst (σ : Var → Expr) : Expr → Expr
  | const c => const c
  | var v => σ v
  | add a b => add (subst σ a) (subst σ b)
  | sub a b => sub (subst σ a) (subst σ b)
  | mul a b => mul (subst σ a) (subst σ b)
  | div a b => div (subst σ a) (subst σ b)
  | neg a => neg (subst σ a)
  | sin a => sin (subst σ a)
  | cos a => cos (subst σ a)
  | sqrt a => sqrt (subst σ a)
  | pow a n => pow (subst σ a) n
  | inv n A i j => inv n (fun k l => subst σ (A k l)) i j

variable {ρ : Var → ℝ} {σ : Var → Expr} {u : ℝ}

theorem eval_subst (e : Expr) : eval ρ (subst σ e) = eval (fun v => eval ρ (σ v)) e := by
  induction e with
  | const c => rfl
  | var v => rfl
  | add a b ha hb => simp only [subst, eval, ha, hb]
  | sub a b ha hb => simp only [subst, eval, ha, hb]
  | mul a b ha hb => simp only [subst, eval, ha, hb]
  | div a b ha hb => simp only [subst, eval, ha, hb]
  | neg a ha => simp only [subst, eval, ha]
  | sin a ha => simp only [subst, eval, ha]
  | cos a ha => simp only [subst, eval, ha]
  | sqrt a ha => simp only [subst, eval, ha]
  | pow a n ha => simp only [subst, eval, ha]
  | inv n A i j h => simp only [subst, eval, h]

theorem subst_var (e : Expr) : subst .var e = e := by
  induction e with
  | const c => rfl
  | var v => rfl
  | add a b ha hb => simp only [subst, ha, hb]
  | sub a b ha hb => simp only [subst, ha, hb]
  | mul a b ha hb => simp only [subst, ha, hb]
  | div a b ha hb => simp only [subst, ha, hb]
  | neg a ha => simp only [subst, ha]
  | sin a ha => simp only [subst, ha]
  | cos a ha => simp only [subst, ha]
  | sqrt a ha => simp only [subst, ha]
  | pow a n ha => simp only [subst, ha]
  | inv n A i j h => simp only [subst, h]

/-- Values computed from computed values. -/
theorem Rounded.subst {w : Var → ℝ} {e : Expr} {v : ℝ} (h : Rounded u w e v) (hw : ∀ x ∈ fv e, Rounded u ρ (σ x) (w x)) :
    Rounded u ρ (e.subst σ) v := by
  induction h with
  | const h => exact .const h
  | var x => exact hw x rfl
  | add _ _ h ia ib => exact .add (ia fun x hx => hw x (.inl hx)) (ib fun x hx => hw x (.inr hx)) h
  | sub _ _ h ia ib => exact .sub (ia fun x hx => hw x (.inl hx)) (ib fun x hx => hw x (.inr hx)) h
  | mul _ _ h ia ib => exact .mul (ia fun x hx => hw x (.inl hx)) (ib fun x hx => hw x (.inr hx)) h
  | div _ _ h ia ib => exact .div (ia fun x hx => hw x (.inl hx)) (ib fun x hx => hw x (.inr hx)) h
  | neg _ ia => exact .neg (ia hw)
  | sin _ h ia => exact .sin (ia hw) h
  | cos _ h ia => exact .cos (ia hw) h
  | sqrt _ h ia => exact .sqrt (ia hw) h
  | pow _ h ia => exact .pow (ia hw) h
  | inv _ h i ih => exact .inv (fun k l => ih k l fun x hx => hw x ⟨k, l, hx⟩) h i

theorem TameOn.subst {P : (Var → ℝ) → Prop} {S : Set Var} {e : Expr} (h : Tame S e) (hσ : ∀ x ∈ fv e, TameOn P ∅ (σ x)) : TameOn P ∅ (e.subst σ) := by
  induction h with
  | const c => exact .const c
  | var x => exact hσ x rfl
  | add _ _ ia ib => exact .add (ia fun x hx => hσ x (.inl hx)) (ib fun x hx => hσ x (.inr hx))
  | sub _ _ ia ib => exact .sub (ia fun x hx => hσ x (.inl hx)) (ib fun x hx => hσ x (.inr hx))
  | mul _ _ ia ib => exact .mul (ia fun x hx => hσ x (.inl hx)) (ib fun x hx => hσ x (.inr hx))
  | div _ _ hm hd ia ib =>
    exact .div (ia fun x hx => hσ x (.inl hx)) (ib fun x hx => hσ x (.inr hx)) hm fun ρ _ => by rw [eval_subst]; exact hd _ trivial
  | neg _ ia => exact .neg (ia hσ)
  | sin _ ia => exact .sin (ia hσ)
  | cos _ ia => exact .cos (ia hσ)
  | sqrt _ _ ia => exact .sqrt (ia hσ) (Set.disjoint_empty _)
  | pow _ n ia => exact .pow (ia hσ) n
  | inv _ h i j ih => exact .inv (fun k l => ih k l fun x hx => hσ x ⟨k, l, hx⟩) (fun ρ _ => by simpa only [eval_subst] using h _ trivial) i j

theorem fv_subst (e : Expr) : fv (subst σ e) = {v | ∃ x ∈ fv e, v ∈ fv (σ x)} := by
  induction e with
  | const c => simp [subst, fv]
  | var v => simp [subst, fv]
  | add a b ha hb => ext v; simp [subst, fv, ha, hb, or_and_right, exists_or]
  | sub a b ha hb => ext v; simp [subst, fv, ha, hb, or_and_right, exists_or]
  | mul a b ha hb => ext v; simp [subst, fv, ha, hb, or_and_right, exists_or]
  | div a b ha hb => ext v; simp [subst, fv, ha, hb, or_and_right, exists_or]
  | neg a ha => simp only [subst, fv, ha]
  | sin a ha => simp only [subst, fv, ha]
  | cos a ha => simp only [subst, fv, ha]
  | sqrt a ha => simp only [subst, fv, ha]
  | pow a n ha => simp only [subst, fv, ha]
  | inv n A i j h =>
    ext v
    simp only [subst, fv, h, Set.mem_ofPred_eq]
    exact ⟨fun ⟨k, l, x, hx, hv⟩ => ⟨x, ⟨k, l, hx⟩, hv⟩, fun ⟨x, ⟨k, l, hx⟩, hv⟩ => ⟨k, l, x, hx, hv⟩⟩

end Expr

end

end Thunder
