import Verif.Lemmas.WrapperBuf
import Mathlib.Tactic.IntervalCases

/-!
# Wrapper class: files written by `save_par_REG` and `save_par_DYN`
-/

namespace Thunder

namespace Yaml

theorem lookup_isSome {k : String} {l : List (Option String × Yaml)} (h : ∀ p ∈ l, p.1 ≠ some k) : lookup k l = none := by
  simp only [lookup, Option.map_eq_none_iff, List.find?_eq_none, beq_iff_eq]
  exact fun p hp => h p hp

/-- Lookup in a list of entries with different keys. -/
theorem lookup_map {key : ℕ → String} {val : ℕ → Yaml} : ∀ (l : List ℕ) {i : ℕ}, i ∈ l → (∀ j ∈ l, key j = key i → j = i) →
    lookup (key i) (l.map fun j => (some (key j), val j)) = some (val i)
  | [], _, h, _ => absurd h (by simp)
  | a :: l, i, h, hinj => by
    by_cases e : a = i
    · subst e; simp [lookup]
    · have hk : key a ≠ key i := fun hk => e (hinj a List.mem_cons_self hk)
      have := lookup_map (key := key) (val := val) l ((List.mem_cons.mp h).resolve_left fun h => e h.symm)
        fun j hj => hinj j (List.mem_cons_of_mem _ hj)
      simpa [lookup, hk] using this

/-- A node without entries, to which keys are added. -/
def Fresh : Yaml → Prop
  | null => True
  | undef => True
  | _ => False

/-- Adding keys that are all different. -/
theorem foldl_setKey {base : Yaml} (hb : base.Fresh) (key : ℕ → String) (val : ℕ → Yaml) :
    ∀ n, (∀ i < n, ∀ j < n, key i = key j → i = j) → (List.range n).foldl (fun y i => y.setKey (key i) (val i)) base =
      if n = 0 then base else .map ((List.range n).map fun i => (some (key i), val i))
  | 0, _ => rfl
  | n + 1, h => by
    rw [List.range_succ, List.foldl_append, foldl_setKey hb key val n fun i hi j hj => h i (by omega) j (by omega)]
    simp only [List.foldl_cons, List.foldl_nil, Nat.add_one_ne_zero, if_false, List.map_append, List.map_cons, List.map_nil]
    by_cases h0 : n = 0
    · subst h0
      cases base <;> first | exact hb.elim | simp [setKey]
    · rw [if_neg h0, setKey, lookup_isSome]
      · simp
      · intro p hp e
        obtain ⟨i, hi, rfl⟩ := List.mem_map.mp hp
        have hi := List.mem_range.mp hi
        have := h i (by omega) n (by omega) (by simpa using e)
        omega

theorem items_foldl_setKey {base : Yaml} (hb : base.Fresh) (key : ℕ → String) (val : ℕ → Yaml)
    (n : ℕ) (h : ∀ i < n, ∀ j < n, key i = key j → i = j) : ((List.range n).foldl (fun y i => y.setKey (key i) (val i)) base).items =
      (List.range n).map fun i => (some (key i), val i) := by
  rw [foldl_setKey hb key val n h]
  split
  · next h0 => subst h0; cases base <;> first | exact hb.elim | rfl
  · rfl

theorem asVec_ofVec (l : List Num) : asVec asD (ofVec l) = some l := by
  simp only [asVec, ofVec]
  induction l with
  | nil => rfl
  | cons a l ih => rw [List.map_cons, List.mapM_cons, ih]; rfl

end Yaml

namespace Wrap

theorem linkName_injective {i j : ℕ} (h : linkName i = linkName j) : i = j := by
  unfold linkName at h
  have h1 : toString (i + 1) = toString (j + 1) := by
    have := congrArg String.toList h
    simp only [String.toList_append, List.append_cancel_left_eq] at this
    exact String.toList_inj.mp this
  have := Nat.repr_injective h1
  omega

theorem inertialKeys_inj {com : String} (hc : com = "m_CoM_" ∨ com = "CoM_") :
    ∀ i < 10, ∀ j < 10, (inertialKeys com).getD i "" = (inertialKeys com).getD j "" → i = j := by
  intro i hi j hj h
  rcases hc with rfl | rfl <;> interval_cases i <;> interval_cases j <;> first | rfl | (exfalso; revert h; simp [inertialKeys])

/-- Reading back the ten values of a link. -/
theorem read_linkNode {com : String} (hc : com = "m_CoM_" ∨ com = "CoM_") (p : ℕ → Num) (dl : List Num) :
    ∃ inertial fr, (linkNode com p dl).getC "inertial" = some inertial ∧ (linkNode com p dl).getC "friction" = some fr ∧
      readInertial com inertial = some ((List.range 10).map p) ∧ fr.isDef = true ∧ (fr.getC "Dl").bind (Yaml.asVec Yaml.asD) = some dl := by
  refine ⟨.map ((List.range 10).map fun k => (some ((inertialKeys com).getD k ""), Yaml.ofD (p k))), .map [(some "Dl", Yaml.ofVec dl)],
    ?_, ?_, ?_, rfl, ?_⟩
  · unfold linkNode
    rw [Yaml.foldl_setKey (base := .undef) trivial _ _ 10 (inertialKeys_inj hc)]
    simp [Yaml.setKey, Yaml.lookup, Yaml.getC]
  · unfold linkNode
    rw [Yaml.foldl_setKey (base := .undef) trivial _ _ 10 (inertialKeys_inj hc)]
    simp [Yaml.setKey, Yaml.lookup, Yaml.getC]
  · unfold readInertial
    have e : inertialKeys com = (List.range 10).map fun k => (inertialKeys com).getD k "" := (getD_map_range _ _ 10 rfl).symm
    refine (congrArg (List.mapM _) e).trans ?_
    rw [List.mapM_map]
    refine mapM_eq_map fun k hk => ?_
    have hk' := List.mem_range.mp hk
    simp only [Function.comp, Yaml.getM, Option.bind_some]
    rw [Yaml.lookup_map _ hk fun j hj h => inertialKeys_inj hc j (List.mem_range.mp hj) k hk' h]
    rfl
  · simp [Yaml.getC, Yaml.lookup, Yaml.asVec_ofVec]

theorem inertialFile_eq (c : Cfg) (com : String) (par dl : List Num) : ∃ dyn, inertialFile c com par dl = .map [(some "dynamics", dyn)] ∧
    dyn.isDef = true ∧ dyn.items = (List.range c.n).map fun i => (some (linkName i), linkNode com (fun k => par.getD (10 * i + k) none)
      ((List.range c.dlOrd).map fun j => dl.getD (c.dlOrd * i + j) none)) := by
  refine ⟨_, rfl, ?_, Yaml.items_foldl_setKey (base := .null) trivial _ _ _ fun i _ j _ h => linkName_injective h⟩
  rw [Yaml.foldl_setKey (base := .null) trivial _ _ _ fun i _ j _ h => linkName_injective h]
  split <;> rfl

theorem map_range_mul {α : Type} (m n : ℕ) (f : ℕ → α) :
    (List.range (m * n)).map f = (List.range n).flatMap fun i => (List.range m).map fun l => f (m * i + l) := by
  induction n with
  | zero => rfl
  | succ n ih =>
    rw [Nat.mul_succ, List.range_add, List.map_append, ih, List.range_succ (n := n), List.flatMap_append]
    simp [Function.comp_def]

/-- A vector of `m·n` entries cut into `n` pieces. -/
theorem flatten_pieces {m n : ℕ} {v : List Num} (h : v.length = m * n) :
    ((List.range n).map fun i => (List.range m).map fun k => v.getD (m * i + k) none).flatten = v := by
  rw [← List.flatMap_def, ← map_range_mul m n fun j => v.getD j none]
  exact getD_map_range v none _ h

theorem dlWrites_all {m : ℕ} : ∀ (L : List (List Num)) (i : ℕ) (v : List Num), (∀ x ∈ L, x.length = m) → m * (i + L.length) ≤ v.length →
    dlWrites m (L.map some) i v = splice v (m * i) L.flatten
  | [], _, v, _, _ => by simp [dlWrites, splice_nil]
  | x :: L, i, v, h, hl => by
    have hx : x.length = m := h x List.mem_cons_self
    have hfit : m * i + m ≤ v.length := by
      refine le_trans ?_ hl
      rw [List.length_cons, ← Nat.mul_succ]
      exact Nat.mul_le_mul_left _ (by omega)
    rw [List.map_cons, dlWrites, dlWrites_all L (i + 1) _ (fun y hy => h y (List.mem_cons_of_mem _ hy)), List.flatten_cons,
      List.take_of_length_le (by omega)]
    · rw [← splice_splice (v := v) (xs := x) (by omega), hx]; rfl
    · rw [length_splice (by rw [List.take_of_length_le (by omega)]; omega)]
      rw [List.length_cons] at hl
      rw [show i + 1 + L.length = i + (L.length + 1) by omega]
      exact hl

end Wrap

end Thunder
