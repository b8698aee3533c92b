import Verif.Lemmas.FromFile
import Verif.Spec.Pipeline

/-!
# The names in the library
-/

open scoped Classical

namespace Thunder

noncomputable section

open Spec

variable {c : Conf}

theorem mem_numbered {s p : String} {a b : ℕ} : s ∈ numbered p a b ↔ ∃ i, a ≤ i ∧ i ≤ b ∧ s = p ++ toString i := by
  simp only [numbered, List.mem_map, List.mem_range'_1]
  constructor
  · rintro ⟨i, ⟨h1, h2⟩, rfl⟩
    exact ⟨i, h1, by omega, rfl⟩
  · rintro ⟨i, h1, h2, rfl⟩
    exact ⟨i, ⟨h1, by omega⟩, rfl⟩

theorem mem_onlyIf {p : Prop} {s : String} {l : List String} : s ∈ onlyIf p l ↔ p ∧ s ∈ l := by
  unfold onlyIf
  split_ifs with h <;> simp [h]

theorem vars_ne {k : Key} : k.vars c ≠ [] ↔ anySet (k.size c) (k.flag c) := by
  unfold Key.vars anySet
  rw [ne_eq, List.map_eq_nil_iff, Key.idx, List.filter_eq_nil_iff]
  simp

theorem typed_of (h : JointsOk c) : Typed c := by
  intro t ht
  have := h.2 t ht
  simp only [jointTypes, List.mem_cons, List.not_mem_nil, or_false] at this
  unfold isP isR
  tauto

namespace Fn

theorem plain (f : Fn) (h : f.num = none) : f.name = f.stem.str := (Robot.name_plain f h rfl).symm

theorem mem_library_of {f : Fn} (h : f.Valid c) : f.name ∈ library c := by
  have hp : f.num = none → f.name = f.stem.str := plain f
  have hK := valid_K (c := c)
  have hD := valid_D (c := c)
  have hDm := valid_Dm (c := c)
  have hMm := valid_Mm (c := c)
  simp only [library, kinNames, dynNames, elaNames, List.mem_append, mem_onlyIf]
  cases f with
  | T i => exact .inl (.inl (.inl (.inl (.inl (.inl (.inl (.inl (.inl (mem_numbered.2 ⟨i, Nat.zero_le _, h, rfl⟩)))))))))
  | T0 i => exact .inl (.inl (.inl (.inl (.inl (.inl (.inl (.inl (.inr (mem_numbered.2 ⟨i, Nat.zero_le _, h, rfl⟩)))))))))
  | J i => exact .inl (.inl (.inl (.inl (.inl (.inl (.inr (mem_numbered.2 ⟨i, h.1, h.2, rfl⟩)))))))
  | Jcm i => exact .inl (.inl (.inl (.inl (.inr (.inl (mem_numbered.2 ⟨i, h.1, h.2, rfl⟩))))))
  | Dl i => exact .inl (.inl (.inr ⟨lt_of_lt_of_le h.1 h.2, List.mem_cons_of_mem _ (mem_numbered.2 ⟨i, h.1, h.2, rfl⟩)⟩))
  | K i =>
    refine .inr ⟨h.1, .inl (.inl (.inl (.inl (.inl (.inl (.inl ⟨lt_of_le_of_lt (Nat.zero_le _) h.2, List.mem_cons_of_mem _ ?_⟩))))))⟩
    exact List.mem_map.2 ⟨i, List.mem_range.2 h.2, rfl⟩
  | D i =>
    exact .inr ⟨h.1, .inl (.inl (.inl (.inl (.inl (.inl (.inr ⟨lt_of_lt_of_le h.2.1 h.2.2, List.mem_cons_of_mem _ (mem_numbered.2 ⟨i, h.2.1, h.2.2, rfl⟩)⟩))))))⟩
  | Dm i =>
    exact .inr ⟨h.1, .inl (.inl (.inl (.inl (.inl (.inr ⟨lt_of_lt_of_le h.2.1 h.2.2, List.mem_cons_of_mem _ (mem_numbered.2 ⟨i, h.2.1, h.2.2, rfl⟩)⟩)))))⟩
  | regJdq | regJTw =>
    refine .inl (.inl (.inl (.inr ⟨?_, by rw [hp rfl]; simp [stem, Stem.str]⟩)))
    by_contra hh
    simp only [not_or] at hh
    obtain ⟨h1, h2, h3⟩ := hh
    apply h
    rw [show Key.DH.vars c = [] from not_not.1 fun e => h1 (by have := vars_ne.1 e; rwa [show Key.DH.size c = 4 * c.n from Nat.mul_comm _ _] at this),
      show Key.W2L.vars c = [] from not_not.1 fun e => h2 (vars_ne.1 e), show Key.EE.vars c = [] from not_not.1 fun e => h3 (vars_ne.1 e)]
    rfl
  | regK =>
    have he := hK h
    have := vars_ne.1 h
    simp only [Key.size, he, if_true] at this
    exact .inr ⟨he, .inl (.inl (.inl (.inr ⟨this, by rw [hp rfl]; simp [stem, Stem.str]⟩)))⟩
  | regD =>
    have he := hD h
    have := vars_ne.1 h
    simp only [Key.size, he, if_true] at this
    exact .inr ⟨he, .inl (.inl (.inr ⟨this, by rw [hp rfl]; simp [stem, Stem.str]⟩))⟩
  | regDm =>
    have he := hDm h
    have := vars_ne.1 h
    simp only [Key.size, he, if_true] at this
    exact .inr ⟨he, .inl (.inr ⟨this, by rw [hp rfl]; simp [stem, Stem.str]⟩)⟩
  | regMm =>
    have he := hMm h
    have := vars_ne.1 h
    simp only [Key.size, he, if_true] at this
    exact .inr ⟨he, .inr ⟨this, by rw [hp rfl]; simp [stem, Stem.str]⟩⟩
  | regDl => exact .inl (.inr ⟨vars_ne.1 h, by rw [hp rfl]; simp [stem, Stem.str]⟩)
  | dl => exact .inl (.inl (.inr ⟨h, by rw [hp rfl]; simp [stem, Stem.str]⟩))
  | k => exact .inr ⟨h.1, .inl (.inl (.inl (.inl (.inl (.inl (.inl ⟨h.2, by rw [hp rfl]; simp [stem, Stem.str]⟩))))))⟩
  | d => exact .inr ⟨h.1, .inl (.inl (.inl (.inl (.inl (.inl (.inr ⟨h.2, by rw [hp rfl]; simp [stem, Stem.str]⟩))))))⟩
  | dm => exact .inr ⟨h.1, .inl (.inl (.inl (.inl (.inl (.inr ⟨h.2, by rw [hp rfl]; simp [stem, Stem.str]⟩)))))⟩
  | Mm => exact .inr ⟨h, .inl (.inl (.inl (.inl (.inr (by rw [hp rfl]; simp [stem, Stem.str])))))⟩
  | T0ee => exact .inl (.inl (.inl (.inl (.inl (.inl (.inl (.inr (by rw [hp rfl]; simp [stem, Stem.str]))))))))
  | Jee | JeeDot | JeeDdot | JeePinv => exact .inl (.inl (.inl (.inl (.inl (.inr (by rw [hp rfl]; simp [stem, Stem.str]))))))
  | _ => exact .inl (.inl (.inl (.inl (.inr (.inr (by rw [hp rfl]; simp [stem, Stem.str]))))))

theorem mem_library {s : String} : s ∈ library c ↔ ∃ f : Fn, f.Valid c ∧ s = f.name := by
  refine ⟨fun h => ?_, fun ⟨f, hv, e⟩ => e ▸ mem_library_of hv⟩
  have key : ∀ f : Fn, f.num = none → f.Valid c → s = f.stem.str → ∃ f : Fn, f.Valid c ∧ s = f.name := fun f hn hv e =>
    ⟨f, hv, by rw [plain f hn, e]⟩
  simp only [library, List.mem_append, mem_onlyIf] at h
  rcases h with ((((h | h) | ⟨h0, h⟩) | ⟨h0, h⟩) | ⟨h0, h⟩) | ⟨h0, h⟩
  · simp only [kinNames, List.mem_append, mem_numbered, List.mem_cons, List.not_mem_nil, or_false] at h
    rcases h with (((⟨i, _, h2, e⟩ | ⟨i, _, h2, e⟩) | e) | ⟨i, h1, h2, e⟩) | e | e | e | e
    · exact ⟨.T i, h2, e⟩
    · exact ⟨.T0 i, h2, e⟩
    · exact key .T0ee rfl trivial e
    · exact ⟨.J i, ⟨h1, h2⟩, e⟩
    · exact key .Jee rfl trivial e
    · exact key .JeeDot rfl trivial e
    · exact key .JeeDdot rfl trivial e
    · exact key .JeePinv rfl trivial e
  · simp only [dynNames, List.mem_append, mem_numbered, List.mem_cons, List.not_mem_nil, or_false] at h
    rcases h with ⟨i, h1, h2, e⟩ | e | e | e | e | e | e | e | e | e | e | e | e | e | e
    · exact ⟨.Jcm i, ⟨h1, h2⟩, e⟩
    · exact key .M rfl trivial e
    · exact key .C rfl trivial e
    · exact key .Cstd rfl trivial e
    · exact key .G rfl trivial e
    · exact key .Mdot rfl trivial e
    · exact key .Mddot rfl trivial e
    · exact key .Cdot rfl trivial e
    · exact key .Cddot rfl trivial e
    · exact key .Gdot rfl trivial e
    · exact key .Gddot rfl trivial e
    · exact key .Yr rfl trivial e
    · exact key .regM rfl trivial e
    · exact key .regC rfl trivial e
    · exact key .regG rfl trivial e
  · have hv : Key.DH.vars c ++ Key.W2L.vars c ++ Key.EE.vars c ≠ [] := by
      intro e
      simp only [List.append_eq_nil_iff] at e
      rcases h0 with h0 | h0 | h0
      · exact vars_ne.2 (by rwa [show Key.DH.size c = 4 * c.n from Nat.mul_comm _ _]) e.1.1
      · exact vars_ne (k := .W2L).2 h0 e.1.2
      · exact vars_ne (k := .EE).2 h0 e.2
    simp only [List.mem_cons, List.not_mem_nil, or_false] at h
    rcases h with e | e
    · exact key .regJdq rfl hv e
    · exact key .regJTw rfl hv e
  · rw [List.mem_cons, mem_numbered] at h
    rcases h with e | ⟨i, h1, h2, e⟩
    · exact key .dl rfl h0 e
    · exact ⟨.Dl i, ⟨h1, h2⟩, e⟩
  · rw [List.mem_singleton] at h
    exact key .regDl rfl (vars_ne.2 h0) h
  · simp only [elaNames, List.mem_append, mem_onlyIf, List.mem_cons, List.not_mem_nil, or_false, mem_numbered, List.mem_map, List.mem_range] at h
    have hs : ∀ (k : Key) (m : ℕ), k.size c = m → anySet m (k.flag c) → k.vars c ≠ [] := fun k m e h => vars_ne.2 (by rwa [e])
    rcases h with ((((((⟨h1, e | ⟨i, hi, e⟩⟩ | ⟨h1, e | ⟨i, hi, hi', e⟩⟩) | ⟨h1, e | ⟨i, hi, hi', e⟩⟩) | e) | ⟨h1, e⟩) | ⟨h1, e⟩) | ⟨h1, e⟩) | ⟨h1, e⟩
    · exact key .k rfl ⟨h0, h1⟩ e
    · exact ⟨.K i, ⟨h0, hi⟩, e.symm⟩
    · exact key .d rfl ⟨h0, h1⟩ e
    · exact ⟨.D i, ⟨h0, hi, hi'⟩, e⟩
    · exact key .dm rfl ⟨h0, h1⟩ e
    · exact ⟨.Dm i, ⟨h0, hi, hi'⟩, e⟩
    · exact key .Mm rfl h0 e
    · exact key .regK rfl (hs .K _ (by simp [Key.size, h0]) h1) e
    · exact key .regD rfl (hs .D _ (by simp [Key.size, h0]) h1) e
    · exact key .regDm rfl (hs .Dm _ (by simp [Key.size, h0]) h1) e
    · exact key .regMm rfl (hs .Mm _ (by simp [Key.size, h0]) h1) e

theorem name_mem {f : Fn} : f.name ∈ library c ↔ f.Valid c := by
  refine ⟨fun h => ?_, mem_library_of⟩
  obtain ⟨f', hv, e⟩ := mem_library.1 h
  rwa [name_inj e]

end Fn

end

end Thunder
