import Verif.Lemmas.User
import Mathlib.Data.Finset.Card

/-!
# Adding a function to a robot read from a file
-/

open scoped Classical

namespace Thunder

open Spec Act

noncomputable section

namespace Robot

/-- The symbols of `l` whose position has a non-zero flag. -/
def picked (fl : List ℤ) (l : List Var) : List Var := ((List.range l.length).filter fun i => fl.getD i 0 ≠ 0).map fun i => l.getD i ⟨"", 0⟩

theorem selected_picked {fl : List ℤ} {l : List Var} (h : l.length ≤ fl.length) : Selected fl (SX.ofList (l.map .var)) (picked fl l) := by
  refine ⟨by simpa [SX.ofList] using h, ?_⟩
  rw [picked, List.map_map]
  simp only [SX.ofList, List.length_map]
  refine List.map_congr_left fun i hi => ?_
  have hi : i < l.length := List.mem_range.1 (List.mem_filter.1 hi).1
  simp [List.getD_eq_getElem?_getD, hi]

theorem picked_all {fl : List ℤ} {l : List Var} (h : ∀ i < l.length, fl.getD i 0 ≠ 0) : picked fl l = l := by
  have : ((List.range l.length).filter fun i => fl.getD i 0 ≠ 0) = List.range l.length :=
    List.filter_eq_self.2 fun i hi => decide_eq_true (h i (List.mem_range.1 hi))
  rw [picked, this]
  refine List.ext_getElem (by simp) fun i h1 h2 => ?_
  simp [List.getD_eq_getElem?_getD, h2]

theorem mem_picked {fl : List ℤ} {l : List Var} {v : Var} : v ∈ picked fl l ↔ ∃ i, ∃ h : i < l.length, fl.getD i 0 ≠ 0 ∧ l[i] = v := by
  unfold picked
  simp only [List.mem_map, List.mem_filter, List.mem_range, decide_eq_true_eq]
  constructor
  · rintro ⟨i, ⟨h1, h2⟩, e⟩
    exact ⟨i, h1, h2, by rw [← e]; simp [List.getD_eq_getElem?_getD, h1]⟩
  · rintro ⟨i, h1, h2, e⟩
    exact ⟨i, ⟨h1, h2⟩, by rw [← e]; simp [List.getD_eq_getElem?_getD, h1]⟩

theorem picked_sub {fl : List ℤ} {l : List Var} {v : Var} (h : v ∈ picked fl l) : v ∈ l := by
  obtain ⟨i, hi, -, rfl⟩ := mem_picked.1 h
  exact List.getElem_mem hi

theorem not_picked {fl : List ℤ} {l : List Var} (hn : l.Nodup) {i : ℕ} (hi : i < l.length) (h0 : fl.getD i 0 = 0) : l[i] ∉ picked fl l := by
  intro h
  obtain ⟨j, hj, hf, e⟩ := mem_picked.1 h
  obtain rfl : j = i := (hn.getElem_inj_iff).1 e
  exact hf h0

/-- The symbolic entries come first exactly when the first flags, as many as there are symbolic entries, are set. -/
theorem prefix_iff {n : ℕ} {p : ℕ → Prop} [DecidablePred p] : (∀ i j, i < j → j < n → p j → p i) ↔ ∀ i < ((List.range n).filter fun i => decide (p i)).length, p i := by
  have hc : ((List.range n).filter fun i => decide (p i)).length = ((Finset.range n).filter p).card := by
    rw [← List.toFinset_card_of_nodup (List.nodup_range.filter _)]
    congr 1
    ext i
    simp
  rw [hc]
  constructor
  · intro h i hi
    by_contra hp
    have : (Finset.range n).filter p ⊆ Finset.range i := by
      intro j hj
      obtain ⟨h1, h2⟩ := Finset.mem_filter.1 hj
      refine Finset.mem_range.2 (lt_of_not_ge fun hij => ?_)
      rcases hij.lt_or_eq with hij | rfl
      · exact hp (h i j hij (Finset.mem_range.1 h1) h2)
      · exact hp h2
    have := Finset.card_le_card this
    rw [Finset.card_range] at this
    omega
  · intro h i j hij hj hp
    by_contra hi
    have hci : ((Finset.range n).filter p).card ≤ i := le_of_not_gt fun hlt => hi (h i hlt)
    have : insert j (Finset.range ((Finset.range n).filter p).card) ⊆ (Finset.range n).filter p := by
      intro k hk
      rcases Finset.mem_insert.1 hk with rfl | hk
      · exact Finset.mem_filter.2 ⟨Finset.mem_range.2 hj, hp⟩
      · have hk := Finset.mem_range.1 hk
        exact Finset.mem_filter.2 ⟨Finset.mem_range.2 (by omega), h k hk⟩
    have := Finset.card_le_card this
    rw [Finset.card_insert_of_notMem (by rw [Finset.mem_range]; omega), Finset.card_range] at this
    omega

/-- A function with a free symbol that is not an input throws. -/
theorem addFunction_free {r : Robot} {f : String} {expr : SX} {fargs : List String} {descr : String} {vs : List (List Var)}
    (hs : List.Forall₂ (fun a v => Selected (r.flags a) (r.mod a) v) fargs vs) (hf : f ∉ fargs) {i j : ℕ} (hi : i < expr.rows) (hj : j < expr.cols) {v : Var}
    (hv : v ∈ (expr.e i j).fv) (hn : v ∉ vs.flatten) : ∃ r', addFunction f expr fargs descr true r = .exc r' := by
  have hs' : List.Forall₂ (fun a v => Selected
      (Robot.flags { r with model := r.model.put f expr, funArgs := r.funArgs.put f fargs, funDescr := r.funDescr.put f descr } a)
      (Robot.mod { r with model := r.model.put f expr, funArgs := r.funArgs.put f fargs, funDescr := r.funDescr.put f descr } a) v) fargs vs := by
    refine List.forall₂_iff_get.mpr ⟨hs.length_eq, fun i h h' => ?_⟩
    have hne : f ≠ fargs.get ⟨i, h⟩ := fun e => hf (e ▸ List.get_mem _ _)
    have := (List.forall₂_iff_get.mp hs).2 i h h'
    rw [show Robot.mod { r with model := r.model.put f expr, funArgs := r.funArgs.put f fargs, funDescr := r.funDescr.put f descr } (fargs.get ⟨i, h⟩) = r.mod (fargs.get ⟨i, h⟩)
      from SMap.get_put_ne _ _ _ hne]
    exact this
  obtain ⟨r', e, -⟩ := collect_ok hs'
  have hm : mkFun (cName r.name f) (vs.map fun l => l.map Expr.var) expr = none := by
    unfold mkFun
    split_ifs with hc
    · rw [mapM_mapM_symOf]
      refine if_neg fun h => hn ?_
      exact h.2 _ (mem_elements_of hi hj) hv
    · rfl
  refine ⟨r', ?_⟩
  unfold addFunction
  rw [bind_ok (read_run _)]
  simp only [Bool.not_true, Bool.false_and, Bool.false_eq_true, if_false]
  rw [bind_ok (modify_run _ _), bind_ok e, hm]
  rfl

variable {c : Conf} {r : Robot} {L : Set Reg}

/-- What the robot holds under the name of a vector that has flags. -/
theorem Done.key (h : Done c r L) {a : String} (ha : r.symb.has a = true) :
    ∃ k : Key, a = k.str ∧ r.flags a = k.flags c ∧ r.mod a = SX.ofList ((k.vars c).map .var) := by
  obtain ⟨p, hp, rfl⟩ := List.mem_map.1 (SMap.has_iff.1 ha)
  rw [h.symb] at hp
  obtain ⟨k, hk, rfl⟩ := key_of_mem_symb hp
  refine ⟨k, rfl, ?_, ?_⟩
  · unfold Robot.flags SMap.get
    rw [h.symb, find_symb, if_pos hk]
    rfl
  · unfold Robot.mod SMap.get
    rw [h.model k hk]
    rfl

theorem Done.keys (h : Done c r L) {fargs : List String} (ha : ∀ a ∈ fargs, r.symb.has a = true) :
    ∃ ks : List Key, fargs = ks.map Key.str ∧ ∀ k ∈ ks, r.flags k.str = k.flags c ∧ r.mod k.str = SX.ofList ((k.vars c).map .var) := by
  induction fargs with
  | nil => exact ⟨[], rfl, fun _ h => nomatch h⟩
  | cons a l ih =>
    obtain ⟨k, rfl, h1⟩ := h.key (ha a List.mem_cons_self)
    obtain ⟨ks, rfl, h2⟩ := ih fun b hb => ha b (List.mem_cons_of_mem _ hb)
    refine ⟨k :: ks, rfl, fun k' hx => ?_⟩
    rcases List.mem_cons.1 hx with rfl | hx
    · exact h1
    · exact h2 k' hx

theorem length_vars_le (k : Key) : (k.vars c).length ≤ (k.flags c).length := by
  rw [Key.vars, List.length_map, Key.idx]
  refine (List.length_filter_le _ _).trans ?_
  simp [Key.flags, flagsL]

/-- The selected symbols of the vectors. -/
theorem selected_keys {ks : List Key} (h : ∀ k ∈ ks, r.flags k.str = k.flags c ∧ r.mod k.str = SX.ofList ((k.vars c).map .var)) :
    List.Forall₂ (fun a v => Selected (r.flags a) (r.mod a) v) (ks.map Key.str) (ks.map fun k => picked (k.flags c) (k.vars c)) := by
  rw [List.forall₂_map_left_iff, List.forall₂_map_right_iff, List.forall₂_same]
  intro k hk
  rw [(h k hk).1, (h k hk).2]
  exact selected_picked (length_vars_le k)

theorem Key.prefix_iff (k : Key) :
    (∀ i j, i < j → j < (k.flags c).length → (k.flags c).getD j 0 ≠ 0 → (k.flags c).getD i 0 ≠ 0) ↔ ∀ i < (k.vars c).length, (k.flags c).getD i 0 ≠ 0 := by
  rw [Robot.prefix_iff (n := (k.flags c).length) (p := fun i => (k.flags c).getD i 0 ≠ 0)]
  have : ((List.range (k.flags c).length).filter fun i => decide ((k.flags c).getD i 0 ≠ 0)).length = (k.vars c).length := by
    rw [show (k.flags c).length = k.size c by simp [Key.flags, flagsL], Key.vars, List.length_map, ← Key.symIdx_flags]
    rfl
  rw [this]

end Robot

end

end Thunder
