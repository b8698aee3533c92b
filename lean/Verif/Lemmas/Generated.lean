import Verif.Model.Generated
import Verif.Lemmas.Live
import Verif.Lemmas.WrapperBuf
import Verif.Spec.Generated

/-!
# The generated class: what `load_conf` leaves in the members, what the getters read
-/

open scoped Classical

namespace Thunder

noncomputable section

open Spec Act Robot

/-- The member that holds a vector. -/
def Key.field : Key → Wrap.Field
  | q => .q | dq => .dq | ddq => .ddq | d3q => .d3q | d4q => .d4q | dqr => .dqr | ddqr => .ddqr | w => .w
  | x => .x | dx => .dx | ddx => .ddx | ddxr => .ddxr
  | DYN => .DYN | Dl => .Dl | K => .K | D => .D | Dm => .Dm | Mm => .Mm
  | DH => .DH | W2L => .W2L | EE => .EE | grav => .G

namespace Wrap

theorem member_str (k : Key) : member k.str = some k.field := by cases k <;> decide

variable {c : Conf} {r : Robot}

/-! ## Getters -/

/-- What the getter reads for a vector. -/
def readKey (c : Conf) (s : Obj) (k : Key) : Option (List (Var × Num)) := readInput (k.vars c) (s.vec k.field)

theorem mapM_readKey (s : Obj) (ks : List Key) :
    ((List.zip (ks.map (Key.vars c)) (ks.map Key.field)).mapM fun p => readInput p.1 (s.vec p.2)) = ks.mapM (readKey c s) := by
  induction ks with
  | nil => rfl
  | cons k ks ih => rw [List.map_cons, List.map_cons, List.zip_cons_cons, List.mapM_cons, ih, List.mapM_cons]; rfl

theorem mapM_member (ks : List Key) : (ks.map Key.str).mapM member = some (ks.map Key.field) := by
  rw [List.mapM_map]
  exact mapM_some fun k _ => member_str k

/-- The call of a getter. -/
theorem getter_reg {g : Reg} {ks : List Key} (h : HasReg c r g ks) (s : Obj) : getter r g.name s =
    match ks.mapM (readKey c s) with
    | none => .ub
    | some l => .value ⟨g.expr.rows, g.expr.cols, CFun.evalWith ⟨ks.map (Key.vars c), g.expr⟩ l.flatten⟩ := by
  have hm : r.mod g.name = g.expr := by simp [Robot.mod, SMap.get, h.model]
  have ha : r.funArgs.get g.name [] = ks.map Key.str := by simp [SMap.get, h.funArgs]
  unfold getter
  rw [h.funs, ha, mapM_member]
  simp only
  rw [if_pos (by simp), mapM_readKey, hm]
  cases ks.mapM (readKey c s) with
  | none => rfl
  | some l =>
    simp only
    have hlen : (CFun.evalWith ⟨ks.map (Key.vars c), g.expr⟩ l.flatten).length = g.expr.rows * g.expr.cols := by
      unfold CFun.evalWith
      split_ifs <;> rw [List.length_map, length_elements]
    rw [fill, if_pos hlen.le, hlen, Nat.sub_self, List.replicate_zero, List.append_nil]

/-- The member holds, in its first entries, the values the robot has. -/
structure Holds (c : Conf) (r : Robot) (s : Obj) (k : Key) : Prop where
  size : (r.arg k.str).length = (k.vars c).length
  val : (s.vec k.field).take (k.vars c).length = r.arg k.str

theorem Holds.read {s : Obj} {k : Key} (h : Holds c r s k) : readKey c s k = inVals c r k := by
  have hle : (k.vars c).length ≤ (s.vec k.field).length := by
    have := congrArg List.length h.val
    rw [List.length_take, h.size] at this
    omega
  unfold readKey readInput inVals fitInput
  rw [if_pos hle, if_pos h.size, Option.map_some, ← h.val]
  congr 1
  rw [List.zip_eq_zip_take_min, min_eq_left hle, List.take_length]

theorem mapM_congr {α β : Type} {f g : α → Option β} {l : List α} (h : ∀ a ∈ l, f a = g a) : l.mapM f = l.mapM g := by
  induction l with
  | nil => rfl
  | cons a l ih => rw [List.mapM_cons, List.mapM_cons, h a List.mem_cons_self, ih fun b hb => h b (List.mem_cons_of_mem _ hb)]

theorem Holds.inVals {s : Obj} {k : Key} (h : Holds c r s k) : inVals c r k = some (List.zip (k.vars c) (r.arg k.str)) := by
  unfold Robot.inVals fitInput
  rw [if_pos h.size]
  rfl

/-- The call of `get`. -/
theorem get_reg {g : Reg} {ks : List Key} (h : HasReg c r g ks) : ∃ r', Sim r r' ∧ Robot.get g.name r =
    match ks.mapM (inVals c r) with
    | none => .exc r'
    | some l => .ok ⟨g.expr.rows, g.expr.cols, CFun.evalWith ⟨ks.map (Key.vars c), g.expr⟩ l.flatten⟩ r' := by
  have hm : r.mod g.name = g.expr := by simp [Robot.mod, SMap.get, h.model]
  have hins : r.model.ins g.name (SX.zeros 0 0) = r.model := by simp [SMap.ins, SMap.has, h.model]
  refine ⟨(ks.map Key.str).foldl touchArg r, sim_touches _ r, ?_⟩
  unfold Robot.get
  rw [bind_ok (read_run _), h.funArgs]
  simp only
  rw [bind_ok (modify_run _ _), h.funs, bind_ok (ofIdx_some _ _), call_keys, hins]
  cases ks.mapM (inVals c r) with
  | none => rfl
  | some l =>
    have hlen : (CFun.evalWith ⟨ks.map (Key.vars c), g.expr⟩ l.flatten).length = g.expr.rows * g.expr.cols := by
      unfold CFun.evalWith
      split_ifs <;> rw [List.length_map, length_elements]
    rw [Option.map_some, bind_ok (ofExc_some _ _), hm, fill, if_pos hlen.le, bind_ok (ofIdx_some _ _), hlen, Nat.sub_self, List.replicate_zero, List.append_nil]
    rfl

/-- Getter and `get` agree when the members hold the values the robot has. -/
theorem getter_eq {g : Reg} {ks : List Key} (h : HasReg c r g ks) {s : Obj} (hk : ∀ k ∈ ks, Holds c r s k) :
    ∃ m r', Robot.get g.name r = .ok m r' ∧ getter r g.name s = .value m := by
  obtain ⟨r', _, e⟩ := get_reg h
  have h1 : ks.mapM (inVals c r) = some (ks.map fun k => List.zip (k.vars c) (r.arg k.str)) := mapM_some fun k hk' => (hk k hk').inVals
  have h2 : ks.mapM (readKey c s) = ks.mapM (inVals c r) := mapM_congr fun k hk' => (hk k hk').read
  rw [h1] at e
  refine ⟨_, r', e, ?_⟩
  rw [getter_reg h, h2, h1]

/-! ## Loading the configuration -/

theorem sel_nums {k m off : ℕ} {x : ℕ → ℝ} {f : ℕ → ℤ} (h : off + k ≤ m) :
    sel (nums k x) (flagsL m f) off k = ((List.range k).filter fun i => f (off + i) ≠ 0).map fun i => some (x i) := by
  have key : ∀ l : List ℕ, (∀ i ∈ l, i < k) → (l.flatMap fun i => if (flagsL m f).getD (off + i) 0 = 0 then [] else [(nums k x).getD i none]) =
      (l.filter fun i => f (off + i) ≠ 0).map fun i => some (x i) := by
    intro l
    induction l with
    | nil => intro _; rfl
    | cons a l ih =>
      intro hl
      have ha := hl a List.mem_cons_self
      rw [List.flatMap_cons, ih fun i hi => hl i (List.mem_cons_of_mem _ hi)]
      have e1 : (flagsL m f).getD (off + a) 0 = f (off + a) := by
        simp [flagsL, List.getD_eq_getElem?_getD, show off + a < m by omega]
      have e2 : (nums k x).getD a none = some (x a) := by simp [nums, List.getD_eq_getElem?_getD, ha]
      rw [e1, e2]
      by_cases hz : f (off + a) = 0 <;> simp [hz]
  exact key _ fun i hi => List.mem_range.1 hi

theorem length_nums (k : ℕ) (x : ℕ → ℝ) : (nums k x).length = k := by simp [nums]
theorem length_flagsL (k : ℕ) (x : ℕ → ℤ) : (flagsL k x).length = k := by simp [flagsL]

theorem conservativeResize_splice {v xs : List Num} : conservativeResize (splice v 0 xs) xs.length = xs := by
  simp [conservativeResize, splice]

theorem isDef_child {y z : Yaml} {k : String} (h : Child y k z) : y.isDef = true := by
  obtain ⟨l₁, l₂, rfl, _⟩ := h
  rfl

theorem isDef_entry {α : Type} {f : Yaml → Option α} {y : Yaml} {k : String} {a : α} (h : Entry f y k a) : y.isDef = true := by
  obtain ⟨z, h, _⟩ := h
  exact isDef_child h

theorem getM_ent {α : Type} {f : Yaml → Option α} {y : Yaml} {k : String} {a : α} (h : Entry f y k a) : (y.getM k).bind f = some a := by
  obtain ⟨z, h, e⟩ := h
  rw [getM_child h]; exact e

theorem getM_noChild {y : Yaml} {k : String} (h : NoChild y k) : y.getM k = some .undef := by
  obtain ⟨l, rfl, hl⟩ := h
  simp [Yaml.getM, Yaml.lookup_isSome hl]

theorem flagsL_zero {m : ℕ} {fl : ℕ → ℤ} (h : ∀ i < m, fl i = 0) : flagsL m fl = List.replicate m 0 := by
  apply List.ext_getElem
  · simp [flagsL]
  · intro i h1 h2
    simp [flagsL] at h1 ⊢
    exact h i h1

theorem setSymb_self (s : Obj) (f : SField) : s.setSymb f (s.symb f) = s := by simp [Obj.setSymb]
theorem setSymb_symb (s : Obj) (f : SField) (v : List ℤ) : (s.setSymb f v).symb f = v := by simp [Obj.setSymb]

/-- The selection vector is the given one, or still zero. -/
def SymbOk (s : Obj) (f : SField) (p : List ℤ) : Prop := s.symb f = p ∨ s.symb f = List.replicate p.length 0

theorem readSymb_ok {nd : Yaml} {m : ℕ} {fl : ℕ → ℤ} (h : Flags nd "symb" m fl) {f : SField} {s : Obj} (hs : SymbOk s f (flagsL m fl)) (k : Obj → Out) :
    readSymb nd f s k = k (s.setSymb f (flagsL m fl)) := by
  unfold readSymb
  rcases h with ⟨h, h0⟩ | ⟨z, h, e⟩
  · rw [getM_noChild h, yaml]
    have : s.symb f = flagsL m fl := by
      rcases hs with hs | hs
      · exact hs
      · rw [hs, flagsL_zero h0, List.length_replicate]
    rw [← this, setSymb_self]
    rfl
  · have hz : z.isDef = true := by cases z <;> first | rfl | cases e
    rw [getM_child h, yaml]
    simp only [hz, if_true]
    rw [e]
    rfl

/-- The constants of the class generated from a configuration. -/
def cfg (c : Conf) : Cfg := ⟨c.n, c.ne, c.kO, c.dO, c.dlO, c.dmO⟩

theorem cfgOf_fixed (h : Fixed c r) : cfgOf r = cfg c := by
  unfold cfgOf cfg
  rw [h.n, h.ne, h.kOrd, h.dOrd, h.dlOrd, h.dmOrd]

/-- The selection vectors of a configuration. -/
def pat (c : Conf) : SField → List ℤ
  | .DH => flagsL (4 * c.n) c.fdh
  | .G => flagsL 3 c.fg
  | .W2L => flagsL 6 c.fw2l
  | .EE => flagsL 6 c.fee

def Symbs (c : Conf) (s : Obj) : Prop := ∀ f, SymbOk s f (pat c f)

theorem Symbs.set {s : Obj} (h : Symbs c s) (f : Field) (v : List Num) : Symbs c (s.set f v) := h
theorem Symbs.setSymb {s : Obj} (h : Symbs c s) (f : SField) : Symbs c (s.setSymb f (pat c f)) := by
  intro g
  by_cases e : g = f
  · subst e; exact .inl (setSymb_symb _ _ _)
  · have : (s.setSymb f (pat c f)).symb g = s.symb g := by simp [Obj.setSymb, Function.update_of_ne e]
    unfold SymbOk
    rw [this]; exact h g

theorem symbs_init (c : Conf) : Symbs c (init (cfg c)) := by
  intro f
  right
  cases f <;> simp [init, pat, Cfg.symbSize, cfg, flagsL, Nat.mul_comm]

theorem length_filter_range (k : ℕ) (p : ℕ → Bool) (x : ℕ → ℝ) : (((List.range k).filter p).map fun i => (some (x i) : Num)).length ≤ k := by
  rw [List.length_map]
  exact le_trans (List.length_filter_le _ _) (by simp)

theorem loadKin_ok {y : Yaml} (h : Describes y c) {s : Obj} (hs : Symbs c s) :
    loadKin (cfg c) y s = .ok ((s.setSymb .DH (pat c .DH)).set .DH (kept c .DH)) := by
  obtain ⟨z, hz, hd, hf⟩ := h.kin
  unfold loadKin
  rw [getM_child hz, yaml]
  simp only [isDef_entry hd, if_true]
  rw [getM_ent hd, yaml, readSymb_ok hf (s := s.set .DH _) (hs .DH)]
  rw [setSymb_symb, pick_eq (by rw [length_nums, length_flagsL]; omega) le_rfl, must, length_nums, sel_nums (by omega)]
  have hk : (((List.range (4 * c.n)).filter fun i => c.fdh (0 + i) ≠ 0).map fun i => (some (c.dh i) : Num)) = kept c .DH := by
    unfold kept Key.idx
    simp only [Key.size, Key.flag, Key.val, Nat.zero_add, Nat.mul_comm]
    exact congrArg _ (List.filter_congr fun i _ => decide_eq_decide.2 Iff.rfl)
  rw [hk]
  have hl : (kept c .DH).length ≤ 4 * c.n := by rw [← hk]; exact length_filter_range _ _ _
  rw [setSymb_vec, set_vec_same, setSeg_some (by rw [length_resize]; simp only [cfg]; omega), must, conservativeResize_splice]
  congr 1
  exact set_set (s.setSymb .DH (pat c .DH)) .DH _ _

theorem loadFrame_ok {y : Yaml} {name : String} {f : Field} {sf : SField} {v : ℕ → ℝ} {fl : ℕ → ℤ} (h : FrameEntry y name v fl) {s : Obj}
    (hs : SymbOk s sf (flagsL 6 fl)) :
    loadFrame name f sf y s = .ok ((s.setSymb sf (flagsL 6 fl)).set f (((List.range 6).filter fun i => fl i ≠ 0).map fun i => some (v i))) := by
  obtain ⟨z, hz, ht, hy, hf⟩ := h
  unfold loadFrame
  rw [getM_child hz, yaml]
  simp only [isDef_entry ht, if_true]
  rw [readSymb_ok hf (s := s.set f _) hs, getM_ent ht, yaml, getM_ent hy, yaml]
  rw [setSymb_symb, pick_eq (by rw [length_flagsL]; omega) (by rw [length_nums]), must, pick_eq (by rw [length_flagsL]) (by rw [length_nums]), must]
  rw [sel_nums (by omega), sel_nums (by omega)]
  have hk : (((List.range 3).filter fun i => fl (0 + i) ≠ 0).map fun i => (some (v i) : Num)) ++
      (((List.range 3).filter fun i => fl (3 + i) ≠ 0).map fun i => (some (v (3 + i)) : Num)) =
      ((List.range 6).filter fun i => fl i ≠ 0).map fun i => some (v i) := by
    rw [show List.range 6 = List.range 3 ++ (List.range 3).map (3 + ·) from rfl, List.filter_append, List.map_append, List.filter_map, List.map_map]
    simp only [Nat.zero_add]
    rfl
  rw [hk]
  have hl := length_filter_range 6 (fun i => fl i ≠ 0) v
  rw [setSymb_vec, set_vec_same, setSeg_some (by rw [length_resize]; omega), must, conservativeResize_splice]
  congr 1
  exact set_set (s.setSymb sf (flagsL 6 fl)) f _ _

theorem loadGrav_ok {y : Yaml} (h : Describes y c) {s : Obj} (hs : Symbs c s) :
    (loadGrav y s = .ok s ∧ kept c .grav = []) ∨ loadGrav y s = .ok ((s.setSymb .G (pat c .G)).set .G (kept c .grav)) := by
  unfold loadGrav
  rcases h.grav with ⟨h, h0⟩ | ⟨z, hz, hd, hg, hf⟩
  · left
    rw [getM_noChild h, yaml]
    refine ⟨rfl, ?_⟩
    unfold kept Key.idx
    rw [List.map_eq_nil_iff, List.filter_eq_nil_iff]
    intro i hi
    simp [Key.flag, (h0 i (List.mem_range.1 hi)).2]
  · right
    rw [getM_child hz, yaml]
    simp only [hd, if_true]
    rw [readSymb_ok hf (s := s.set .G _) (hs .G), getM_ent hg, yaml]
    rw [setSymb_symb, pick_eq (by rw [length_flagsL]) (by rw [length_nums]), must, sel_nums (by omega)]
    have hk : (((List.range 3).filter fun i => c.fg (0 + i) ≠ 0).map fun i => (some (c.g i) : Num)) = kept c .grav := by
      unfold kept Key.idx
      simp only [Key.size, Key.flag, Key.val, Nat.zero_add]
      exact congrArg _ (List.filter_congr fun i _ => decide_eq_decide.2 Iff.rfl)
    rw [hk]
    have hl : (kept c .grav).length ≤ 3 := by rw [← hk]; exact length_filter_range _ _ _
    rw [setSymb_vec, set_vec_same, setSeg_some (by rw [length_resize]; omega), must, conservativeResize_splice]
    congr 1
    exact set_set (s.setSymb .G (pat c .G)) .G _ _

/-! ### Links -/

theorem readInertial_ok {z : Yaml} {com : String} {p : ℕ → Num} (h : Inertial z com p) : readInertial com z = some ((List.range 10).map p) := by
  obtain ⟨h0, h1, h2, h3, h4, h5, h6, h7, h8, h9⟩ := h
  unfold readInertial inertialKeys
  simp only [List.mapM_cons, List.mapM_nil, getM_number h0, getM_number h1, getM_number h2, getM_number h3, getM_number h4, getM_number h5,
    getM_number h6, getM_number h7, getM_number h8, getM_number h9]
  rfl

theorem readDynLink_ok {key : String} {nd : Yaml} {i : ℕ} (h : ConfLink c i nd) : ∃ o : Option (List Num),
    readDynLink (some key, nd) = some ((List.range 10).map fun j => some (c.dyn (10 * i + j)), o) ∧
    ((o = none ∧ c.dlO = 0) ∨ ∃ xs, o = some xs ∧ c.dlO ≤ xs.length ∧ xs.take c.dlO = (List.range c.dlO).map fun j => some (c.dl (c.dlO * i + j))) := by
  obtain ⟨⟨z, hz, hi, _⟩, hf⟩ := h
  have e1 : readLink "CoM_" (some key, nd) = some ((List.range 10).map fun j => some (c.dyn (10 * i + j))) := by
    unfold readLink
    rw [Option.bind_some, getC_child hz, Option.bind_some, readInertial_ok hi]
  rcases hf with ⟨h0, hf⟩ | ⟨z', hz', hn, _⟩
  · refine ⟨none, ?_, .inl ⟨rfl, h0⟩⟩
    unfold readDynLink
    rw [e1, Option.bind_some, getC_noChild hf, Option.bind_some]
    rfl
  · obtain ⟨w, xs, hw, e, hlen, hx⟩ := hn
    refine ⟨some xs, ?_, .inr ⟨xs, rfl, hlen, ?_⟩⟩
    · unfold readDynLink
      rw [e1, Option.bind_some, getC_child hz', Option.bind_some, if_pos (isDef_child hw), getC_child hw, Option.bind_some, e]
      rfl
    · apply List.ext_getElem?
      intro j
      by_cases hj : j < c.dlO
      · rw [List.getElem?_take_of_lt hj, hx j hj]
        simp [hj]
      · rw [List.getElem?_eq_none (by rw [List.length_take]; omega), List.getElem?_eq_none (by simp; omega)]

theorem mapM_range {α β : Type} {f : α → Option β} {g : ℕ → β} : ∀ (l : List α), (∀ i (h : i < l.length), f l[i] = some (g i)) →
    l.mapM f = some ((List.range l.length).map g) := by
  intro l h
  induction l generalizing g with
  | nil => rfl
  | cons a l ih =>
    rw [List.mapM_cons, show f a = some (g 0) from h 0 (by simp), ih (g := fun i => g (i + 1)) fun i hi => h (i + 1) (by simpa using hi)]
    rw [List.length_cons, List.range_succ_eq_map, List.map_cons, List.map_map]
    rfl

theorem dlWrites_zero (L : List (Option (List Num))) : ∀ (i : ℕ), dlWrites 0 L i [] = [] := by
  induction L with
  | nil => intro i; rfl
  | cons o L ih =>
    intro i
    cases o with
    | none => exact ih _
    | some xs => rw [dlWrites, List.take_zero, splice_nil]; exact ih _

/-- The same with vectors that may be longer. -/
theorem dlWrites_take {m : ℕ} : ∀ (L : List (List Num)) (i : ℕ) (v : List Num), dlWrites m (L.map some) i v = dlWrites m ((L.map (List.take m)).map some) i v
  | [], _, _ => rfl
  | x :: L, i, v => by
    rw [List.map_cons, List.map_cons, List.map_cons, dlWrites, dlWrites, dlWrites_take L, List.take_take, min_self]

theorem loadDyn_ok {y : Yaml} (h : Describes y c) (upd : Bool) {s : Obj} (hs : Sized (cfg c) s) :
    ∃ R, loadDyn (cfg c) upd y s = .ok (((s.set .DYN (nums (10 * c.n) c.dyn)).set .Dl (nums (c.dlO * c.n) c.dl)).set .REG R) := by
  obtain ⟨l, hl, hlen, hi⟩ := h.links
  have key : ∀ i, ∃ o : Option (List Num), i < c.n → (∀ e, l[i]? = some e →
      readDynLink e = some ((List.range 10).map fun j => some (c.dyn (10 * i + j)), o)) ∧
      ((o = none ∧ c.dlO = 0) ∨ ∃ xs, o = some xs ∧ c.dlO ≤ xs.length ∧ xs.take c.dlO = (List.range c.dlO).map fun j => some (c.dl (c.dlO * i + j))) := by
    intro i
    by_cases hlt : i < c.n
    · obtain ⟨key, nd, e, hc⟩ := hi i hlt
      obtain ⟨o, h1, h2⟩ := readDynLink_ok (key := key) hc
      exact ⟨o, fun _ => ⟨fun e' he' => by rw [e] at he'; cases he'; exact h1, h2⟩⟩
    · exact ⟨none, fun h => absurd h hlt⟩
  choose o ho using key
  have hm : l.mapM readDynLink = some ((List.range c.n).map fun i => ((List.range 10).map fun j => some (c.dyn (10 * i + j)), o i)) := by
    rw [mapM_range l (g := fun i => ((List.range 10).map fun j => some (c.dyn (10 * i + j)), o i)), hlen]
    intro i hil
    exact (ho i (by omega)).1 _ (List.getElem?_eq_getElem hil)
  have hDl : (s.vec .Dl).length = c.dlO * c.n := hs .Dl id
  have hDY : (s.vec .DYN).length = 10 * c.n := hs .DYN id
  have hloop : dynLoop (cfg c) l 0 s = .ok ((s.set .DYN (nums (10 * c.n) c.dyn)).set .Dl (nums (c.dlO * c.n) c.dl)) := by
    rw [dynLoop_ok l 0 s _ hs (Nat.zero_le _) (by rw [Nat.sub_zero, List.take_of_length_le (by simp only [cfg]; omega)]; exact hm)]
    · congr 2
      · rw [List.map_map]
        congr 1
        have : ((List.range c.n).map (Prod.fst ∘ fun i => ((List.range 10).map fun j => (some (c.dyn (10 * i + j)) : Num), o i))).flatten =
            nums (10 * c.n) c.dyn := by
          unfold nums
          rw [map_range_mul, List.flatMap_def]
          rfl
        rw [this, Nat.mul_zero, splice_full (by rw [length_nums, hDY])]
      · rw [List.map_map]
        by_cases h0 : c.dlO = 0
        · have : s.vec .Dl = [] := List.length_eq_zero_iff.1 (by rw [hDl, h0, Nat.zero_mul])
          rw [this, show (cfg c).dlOrd = 0 from h0, dlWrites_zero, h0, Nat.zero_mul]
          rfl
        · have hx : ∀ i, ∃ xs, i < c.n → o i = some xs ∧ c.dlO ≤ xs.length ∧ xs.take c.dlO = (List.range c.dlO).map fun j => some (c.dl (c.dlO * i + j)) := by
            intro i
            by_cases hlt : i < c.n
            · rcases (ho i hlt).2 with ⟨_, h⟩ | ⟨xs, h⟩
              · exact absurd h h0
              · exact ⟨xs, fun _ => h⟩
            · exact ⟨[], fun h => absurd h hlt⟩
          choose xs hxs using hx
          have e1 : (List.range c.n).map (Prod.snd ∘ fun i => ((List.range 10).map fun j => (some (c.dyn (10 * i + j)) : Num), o i)) =
              ((List.range c.n).map xs).map some := by
            rw [List.map_map]
            exact List.map_congr_left fun i hi => (hxs i (List.mem_range.1 hi)).1
          have e2 : ((List.range c.n).map xs).map (List.take c.dlO) = (List.range c.n).map fun i => (List.range c.dlO).map fun j => (some (c.dl (c.dlO * i + j)) : Num) := by
            rw [List.map_map]
            exact List.map_congr_left fun i hi => (hxs i (List.mem_range.1 hi)).2.2
          rw [e1, dlWrites_take, show (cfg c).dlOrd = c.dlO from rfl, e2, dlWrites_all]
          · have : ((List.range c.n).map fun i => (List.range c.dlO).map fun j => (some (c.dl (c.dlO * i + j)) : Num)).flatten = nums (c.dlO * c.n) c.dl := by
              unfold nums
              rw [map_range_mul, List.flatMap_def]
            rw [this, Nat.mul_zero, splice_full (by rw [length_nums, hDl])]
          · intro x hx
            obtain ⟨i, _, rfl⟩ := List.mem_map.1 hx
            simp
          · rw [List.length_map, List.length_range, Nat.zero_add, hDl]
    · intro e he dl hdl
      obtain ⟨i, hi', rfl⟩ := List.mem_map.1 he
      rcases (ho i (List.mem_range.1 hi')).2 with ⟨h, _⟩ | ⟨xs, h, h2, _⟩
      · rw [show o i = some dl from hdl] at h; cases h
      · rw [show o i = some dl from hdl] at h; cases h; exact h2
  unfold loadDyn
  rw [getM_child hl, yaml, if_pos (show Yaml.isDef (.map l) = true from rfl), show (Yaml.map l).items = l from rfl, hloop]
  have hs1 : Sized (cfg c) ((s.set .DYN (nums (10 * c.n) c.dyn)).set .Dl (nums (c.dlO * c.n) c.dl)) :=
    (hs.set fun _ => length_nums _ _).set fun _ => length_nums _ _
  cases upd
  · exact ⟨_, by rw [set_self]; rfl⟩
  · exact ⟨_, updateREG_eq hs1⟩

/-! ### Elastic joints -/

theorem readOrd_step {ord i n : ℕ} {key : String} {f : Field} {nd : Yaml} {F : ℕ → Num} (h : 0 < ord → Numbers nd key ord F) {s : Obj}
    (hv : (s.vec f).length = ord * n) (hi : i < n) (k : Obj → Out) : readOrd ord i key f nd s k = k (s.set f (splice (s.vec f) (ord * i) ((List.range ord).map F))) := by
  unfold readOrd
  by_cases h0 : ord = 0
  · subst h0
    rw [if_pos rfl, List.range_zero, List.map_nil, splice_nil, set_self]
  · rw [if_neg h0]
    obtain ⟨z, xs, hz, e, hl, hx⟩ := h (by omega)
    have ht : xs.take ord = (List.range ord).map F := by
      apply List.ext_getElem?
      intro j
      by_cases hj : j < ord
      · rw [List.getElem?_take_of_lt hj, hx j hj]
        simp [hj]
      · rw [List.getElem?_eq_none (by rw [List.length_take]; omega), List.getElem?_eq_none (by simp; omega)]
    have hfit := row_fit (m := ord) hi
    rw [getC_child hz, Option.bind_some, e, yaml, writeOrd, if_neg (by omega), ht, setSeg_some (by rw [hv]; simp; omega), must]

/-- A vector with rows written from row `i` on. -/
def rowsFrom (v : List Num) (ord n i : ℕ) (x : ℕ → ℝ) : List Num := splice v (ord * i) (((List.range (n - i)).map fun a => (List.range ord).map fun j => some (x (ord * (i + a) + j))).flatten)

theorem length_rows {ord m : ℕ} {x : ℕ → ℕ → Num} : (((List.range m).map fun a => (List.range ord).map fun j => x a j).flatten).length = ord * m := by
  rw [List.length_flatten, List.map_map]
  simp [Function.comp_def, Nat.mul_comm]

theorem rowsFrom_step {v : List Num} {ord n i : ℕ} {x : ℕ → ℝ} (hv : v.length = ord * n) (hi : i < n) :
    rowsFrom (splice v (ord * i) ((List.range ord).map fun j => some (x (ord * i + j)))) ord n (i + 1) x = rowsFrom v ord n i x := by
  have hfit := row_fit (m := ord) hi
  unfold rowsFrom
  obtain ⟨m, hm⟩ : ∃ m, n - i = m + 1 := ⟨n - i - 1, by omega⟩
  rw [hm, show n - (i + 1) = m by omega, List.range_succ_eq_map, List.map_cons, List.flatten_cons, List.map_map]
  have hl : ((List.range ord).map fun j => (some (x (ord * i + j)) : Num)).length = ord := by simp
  have := splice_splice (v := v) (off := ord * i) (xs := (List.range ord).map fun j => (some (x (ord * i + j)) : Num))
    (ys := ((List.range m).map fun a => (List.range ord).map fun j => some (x (ord * (i + 1 + a) + j))).flatten) (by rw [hl, hv]; exact hfit)
  rw [hl] at this
  rw [show ord * (i + 1) = ord * i + ord by ring, this]
  congr 3
  refine List.map_congr_left fun a _ => ?_
  simp only [Function.comp_apply, Nat.succ_eq_add_one]
  rw [show i + (a + 1) = i + 1 + a by omega]

theorem rowsFrom_end {v : List Num} {ord n : ℕ} {x : ℕ → ℝ} : rowsFrom v ord n n x = v := by
  unfold rowsFrom
  rw [Nat.sub_self, List.range_zero, List.map_nil, List.flatten_nil, splice_nil]

theorem rowsFrom_zero {v : List Num} {ord n : ℕ} {x : ℕ → ℝ} (hv : v.length = ord * n) : rowsFrom v ord n 0 x = nums (ord * n) x := by
  unfold rowsFrom nums
  rw [map_range_mul, List.flatMap_def, Nat.mul_zero, Nat.sub_zero]
  simp only [Nat.zero_add]
  exact splice_full (by rw [length_rows, hv])

/-- The four elastic vectors replaced. -/
def set4 (s : Obj) (a b d e : List Num) : Obj := (((s.set .K a).set .D b).set .Dm d).set .Mm e

theorem set4_self (s : Obj) : set4 s (s.vec .K) (s.vec .D) (s.vec .Dm) (s.vec .Mm) = s := by
  unfold set4
  rw [set_self s .K, set_self s .D, set_self s .Dm, set_self s .Mm]

theorem set4_set4 (s : Obj) (a b d e a' b' d' e' : List Num) : set4 (set4 s a b d e) a' b' d' e' = set4 s a' b' d' e' := by
  unfold set4
  rw [set_comm _ e a' (by decide), set_comm _ d a' (by decide), set_comm _ b a' (by decide), set_set, set_comm _ e b' (by decide),
    set_comm _ d b' (by decide), set_set, set_comm _ e d' (by decide), set_set, set_set]

theorem set4_K (s : Obj) (a b d e : List Num) : (set4 s a b d e).vec .K = a := by
  unfold set4; rw [set_vec_ne _ _ (by decide), set_vec_ne _ _ (by decide), set_vec_ne _ _ (by decide), set_vec_same]
theorem set4_D (s : Obj) (a b d e : List Num) : (set4 s a b d e).vec .D = b := by
  unfold set4; rw [set_vec_ne _ _ (by decide), set_vec_ne _ _ (by decide), set_vec_same]
theorem set4_Dm (s : Obj) (a b d e : List Num) : (set4 s a b d e).vec .Dm = d := by
  unfold set4; rw [set_vec_ne _ _ (by decide), set_vec_same]
theorem set4_Mm (s : Obj) (a b d e : List Num) : (set4 s a b d e).vec .Mm = e := by unfold set4; rw [set_vec_same]
theorem set4_ne (s : Obj) (a b d e : List Num) {f : Field} (h1 : f ≠ .K) (h2 : f ≠ .D) (h3 : f ≠ .Dm) (h4 : f ≠ .Mm) : (set4 s a b d e).vec f = s.vec f := by
  unfold set4; rw [set_vec_ne _ _ h4, set_vec_ne _ _ h3, set_vec_ne _ _ h2, set_vec_ne _ _ h1]

theorem length_splice_nums {v : List Num} {ord n i : ℕ} {F : ℕ → Num} (hv : v.length = ord * n) (hi : i < n) :
    (splice v (ord * i) ((List.range ord).map F)).length = ord * n := by
  have := row_fit (m := ord) hi
  rw [length_splice (by simp; omega), hv]

theorem elaLoop_ok : ∀ (l : List (Option String × Yaml)) (i : ℕ) (s : Obj), i ≤ c.ne → c.ne ≤ i + l.length → Sized (cfg c) s →
    (∀ a < c.ne, i ≤ a → ∃ key nd, l[a - i]? = some (some key, nd) ∧ ConfJoint c a nd) →
    elaLoop (cfg c) l i s = .ok (set4 s (rowsFrom (s.vec .K) c.kO c.ne i c.K) (rowsFrom (s.vec .D) c.dO c.ne i c.D)
      (rowsFrom (s.vec .Dm) c.dmO c.ne i c.Dm) (rowsFrom (s.vec .Mm) 1 c.ne i c.Mm))
  | [], i, s, hi, hn, hs, _ => by
    have : i = c.ne := le_antisymm hi (by simpa using hn)
    subst this
    simp only [rowsFrom_end]
    unfold elaLoop
    rw [set4_self]
  | (key, nd) :: l, i, s, hi, hn, hs, h => by
    unfold elaLoop
    by_cases hin : i = c.ne
    · rw [if_pos (show i = (cfg c).ne from hin)]
      subst hin
      simp only [rowsFrom_end]
      rw [set4_self]
    · have hi' : i < c.ne := by omega
      rw [if_neg (show ¬ i = (cfg c).ne from hin)]
      obtain ⟨key', nd', e, ⟨j1, j2, j3, j4⟩, _⟩ := h i hi' le_rfl
      simp only [Nat.sub_self, List.getElem?_cons_zero, Option.some.injEq, Prod.mk.injEq] at e
      obtain ⟨rfl, rfl⟩ := e
      have k1 : (s.vec .K).length = c.kO * c.ne := hs .K id
      have k2 : (s.vec .D).length = c.dO * c.ne := hs .D id
      have k3 : (s.vec .Dm).length = c.dmO * c.ne := hs .Dm id
      have k4 : (s.vec .Mm).length = 1 * c.ne := (hs .Mm id).trans (Nat.one_mul _).symm
      rw [yaml, show (cfg c).kOrd = c.kO from rfl, show (cfg c).dOrd = c.dO from rfl, show (cfg c).dmOrd = c.dmO from rfl,
        readOrd_step j1 k1 hi', readOrd_step j2 (by rw [set_vec_ne _ _ (by decide)]; exact k2) hi',
        readOrd_step j3 (by rw [set_vec_ne _ _ (by decide), set_vec_ne _ _ (by decide)]; exact k3) hi', getC_number j4, yaml]
      have hmm : ∀ t : Obj, t.vec .Mm = s.vec .Mm → setSeg (t.vec .Mm) i [some (c.Mm i)] =
          some (splice (s.vec .Mm) (1 * i) ((List.range 1).map fun j => some (c.Mm (1 * i + j)))) := by
        intro t ht
        rw [ht, setSeg_some (by simp; omega), Nat.one_mul]
        rfl
      rw [hmm _ (by rw [set_vec_ne _ _ (by decide), set_vec_ne _ _ (by decide), set_vec_ne _ _ (by decide)]), must]
      have hst : ∀ a b d e : List Num, ((((s.set .K a).set .D b).set .Dm d).set .Mm e) = set4 s a b d e := fun _ _ _ _ => rfl
      rw [set_vec_ne _ _ (by decide), set_vec_ne _ _ (by decide), set_vec_ne _ _ (by decide), hst]
      have l1 := length_splice_nums (F := fun j => some (c.K (c.kO * i + j))) k1 hi'
      have l2 := length_splice_nums (F := fun j => some (c.D (c.dO * i + j))) k2 hi'
      have l3 := length_splice_nums (F := fun j => some (c.Dm (c.dmO * i + j))) k3 hi'
      have l4 := length_splice_nums (F := fun j => some (c.Mm (1 * i + j))) k4 hi'
      have hs' : Sized (cfg c) (set4 s (splice (s.vec .K) (c.kO * i) ((List.range c.kO).map fun j => some (c.K (c.kO * i + j))))
          (splice (s.vec .D) (c.dO * i) ((List.range c.dO).map fun j => some (c.D (c.dO * i + j))))
          (splice (s.vec .Dm) (c.dmO * i) ((List.range c.dmO).map fun j => some (c.Dm (c.dmO * i + j))))
          (splice (s.vec .Mm) (1 * i) ((List.range 1).map fun j => some (c.Mm (1 * i + j))))) :=
        (((hs.set fun _ => l1).set fun _ => l2).set fun _ => l3).set fun _ => l4.trans (Nat.one_mul _)
      rw [elaLoop_ok l (i + 1) _ (by omega) (by rw [List.length_cons] at hn; omega) hs' fun a ha hia => by
        obtain ⟨key, nd, e, hc⟩ := h a ha (by omega)
        refine ⟨key, nd, ?_, hc⟩
        rw [show a - i = (a - (i + 1)) + 1 by omega, List.getElem?_cons_succ] at e
        exact e]
      rw [set4_set4, set4_K, set4_D, set4_Dm, set4_Mm, rowsFrom_step k1 hi', rowsFrom_step k2 hi', rowsFrom_step k3 hi', rowsFrom_step k4 hi']

/-- Without elastic model the loop writes at most motor inertias. -/
theorem elaLoop_plain (h1 : c.kO = 0) (h2 : c.dO = 0) (h3 : c.dmO = 0) : ∀ (l : List (Option String × Yaml)) (i : ℕ) (s : Obj), i ≤ c.ne → Sized (cfg c) s →
    (elaLoop (cfg c) l i s).Safe fun s' => ∃ v, v.length = c.ne ∧ s' = s.set .Mm v
  | [], i, s, _, hs => ⟨s.vec .Mm, hs .Mm id, (set_self _ _).symm⟩
  | (key, nd) :: l, i, s, hi, hs => by
    have hself : ∃ v : List Num, v.length = c.ne ∧ s = s.set .Mm v := ⟨s.vec .Mm, hs .Mm id, (set_self _ _).symm⟩
    unfold elaLoop
    split
    · exact hself
    · next hin =>
      have hin : ¬ i = c.ne := hin
      refine safe_yaml hself fun _ _ => ?_
      rw [readOrd, if_pos (show (cfg c).kOrd = 0 from h1), readOrd, if_pos (show (cfg c).dOrd = 0 from h2), readOrd, if_pos (show (cfg c).dmOrd = 0 from h3)]
      refine safe_yaml hself fun m _ => ?_
      have hm : (s.vec .Mm).length = c.ne := hs .Mm id
      have hfit : i + [m].length ≤ (s.vec .Mm).length := by simp; omega
      refine safe_must (setSeg_some hfit) ?_
      refine (elaLoop_plain h1 h2 h3 l (i + 1) _ (by omega) (hs.set' (length_splice hfit))).mono fun s' => ?_
      rintro ⟨v, hv, rfl⟩
      exact ⟨v, hv, set_set _ _ _ _⟩

/-! ### The whole file -/

/-- What `load_conf` leaves in the members that hold parameters. -/
structure Loaded (c : Conf) (s1 : Obj) : Prop where
  dh : s1.vec .DH = kept c .DH
  w2l : s1.vec .W2L = kept c .W2L
  ee : s1.vec .EE = kept c .EE
  grav : s1.vec .G = kept c .grav ∨ kept c .grav = []
  dyn : s1.vec .DYN = nums (10 * c.n) c.dyn
  dl : s1.vec .Dl = nums (c.dlO * c.n) c.dl
  K : c.elastic = true → s1.vec .K = nums (c.kO * c.ne) c.K
  D : c.elastic = true → s1.vec .D = nums (c.dO * c.ne) c.D
  Dm : c.elastic = true → s1.vec .Dm = nums (c.dmO * c.ne) c.Dm
  Mm : c.elastic = true → s1.vec .Mm = nums c.ne c.Mm

theorem loadEla_ok {y : Yaml} (h : Describes y c) {s : Obj} (hs : Sized (cfg c) s) : ∃ a b d e : List Num, (loadEla (cfg c) y s).caught = some (set4 s a b d e) ∧
    Sized (cfg c) (set4 s a b d e) ∧
    (c.elastic = true → a = nums (c.kO * c.ne) c.K ∧ b = nums (c.dO * c.ne) c.D ∧ d = nums (c.dmO * c.ne) c.Dm ∧ e = nums c.ne c.Mm) := by
  have k1 : (s.vec .K).length = c.kO * c.ne := hs .K id
  have k2 : (s.vec .D).length = c.dO * c.ne := hs .D id
  have k3 : (s.vec .Dm).length = c.dmO * c.ne := hs .Dm id
  have k4 : (s.vec .Mm).length = c.ne := hs .Mm id
  rcases h.ela with ⟨h0, _, h1, h2, h3⟩ | ⟨_, _, el, l, he, hd, _, _, _, hj, hlen, hall⟩
  · have hsafe : (loadEla (cfg c) y s).Safe fun s' => ∃ v, v.length = c.ne ∧ s' = s.set .Mm v := by
      have hself : ∃ v : List Num, v.length = c.ne ∧ s = s.set .Mm v := ⟨s.vec .Mm, k4, (set_self _ _).symm⟩
      unfold loadEla
      refine safe_yaml hself fun el _ => ?_
      split
      · exact safe_yaml hself fun js _ => elaLoop_plain h1 h2 h3 _ 0 s (Nat.zero_le _) hs
      · exact hself
    obtain ⟨s', e, v, hv, rfl⟩ := hsafe.caught
    have e4 : s.set .Mm v = set4 s (s.vec .K) (s.vec .D) (s.vec .Dm) v := by
      unfold set4
      rw [set_self s .K, set_self s .D, set_self s .Dm]
    refine ⟨s.vec .K, s.vec .D, s.vec .Dm, v, by rw [e, e4], ?_, fun h => by rw [h0] at h; cases h⟩
    rw [← e4]
    exact hs.set fun _ => hv
  · refine ⟨nums (c.kO * c.ne) c.K, nums (c.dO * c.ne) c.D, nums (c.dmO * c.ne) c.Dm, nums c.ne c.Mm, ?_, ?_, fun _ => ⟨rfl, rfl, rfl, rfl⟩⟩
    · unfold loadEla
      rw [getM_child he, yaml]
      simp only [hd, if_true]
      rw [getM_child hj, yaml, show (Yaml.map l).items = l from rfl, elaLoop_ok l 0 s (Nat.zero_le _) (by omega) hs fun a ha _ => hall a ha]
      rw [rowsFrom_zero k1, rowsFrom_zero k2, rowsFrom_zero k3, rowsFrom_zero (by rw [k4, Nat.one_mul]), Nat.one_mul]
      rfl
    · exact (((hs.set fun _ => length_nums _ _).set fun _ => length_nums _ _).set fun _ => length_nums _ _).set fun _ => length_nums _ _

theorem caught_bind {o : Out} {s : Obj} (h : o = .ok s) (k : Obj → Out) : o.bind k = k s := by rw [h]; rfl

theorem kept_w2l (c : Conf) : (((List.range 6).filter fun i => c.fw2l i ≠ 0).map fun i => (some (c.w2l i) : Num)) = kept c .W2L := by
  unfold kept Key.idx
  exact congrArg _ (List.filter_congr fun i _ => decide_eq_decide.2 Iff.rfl)
theorem kept_ee (c : Conf) : (((List.range 6).filter fun i => c.fee i ≠ 0).map fun i => (some (c.ee i) : Num)) = kept c .EE := by
  unfold kept Key.idx
  exact congrArg _ (List.filter_congr fun i _ => decide_eq_decide.2 Iff.rfl)

theorem loadConf_ok {y : Yaml} (h : Describes y c) (upd : Bool) {s : Obj} (hs : Sized (cfg c) s) (hb : Symbs c s) :
    ∃ s1, loadConf (cfg c) (some y) upd s = some s1 ∧ Sized (cfg c) s1 ∧ Symbs c s1 ∧ Loaded c s1 ∧
      ∀ k : Key, k.isVar = true → s1.vec k.field = s.vec k.field := by
  have b1 := hb.setSymb .DH
  have z1 : Sized (cfg c) ((s.setSymb .DH (pat c .DH)).set .DH (kept c .DH)) := hs.set fun hf => absurd trivial hf
  have b2 := b1.setSymb .W2L
  obtain ⟨s2, e2⟩ : ∃ s2, s2 = (((s.setSymb .DH (pat c .DH)).set .DH (kept c .DH)).setSymb .W2L (pat c .W2L)).set .W2L (kept c .W2L) := ⟨_, rfl⟩
  have z2 : Sized (cfg c) s2 := by rw [e2]; exact z1.set fun hf => absurd trivial hf
  have b2' : Symbs c s2 := by rw [e2]; exact b2
  obtain ⟨s3, e3⟩ : ∃ s3, s3 = (s2.setSymb .EE (pat c .EE)).set .EE (kept c .EE) := ⟨_, rfl⟩
  have z3 : Sized (cfg c) s3 := by rw [e3]; exact z2.set fun hf => absurd trivial hf
  have b3 : Symbs c s3 := by rw [e3]; exact b2'.setSymb .EE
  obtain ⟨R, e4⟩ := loadDyn_ok h upd z3
  obtain ⟨s4, hs4⟩ : ∃ s4, s4 = ((s3.set .DYN (nums (10 * c.n) c.dyn)).set .Dl (nums (c.dlO * c.n) c.dl)).set .REG R := ⟨_, rfl⟩
  rw [← hs4] at e4
  have z4 : Sized (cfg c) s4 := by
    have := sized_loadDyn (upd := upd) (y := y) z3
    rw [e4] at this
    exact this
  have b4 : Symbs c s4 := by rw [hs4]; exact b3
  have w4 : ∀ f, f ≠ .DYN → f ≠ .Dl → f ≠ .REG → s4.vec f = s3.vec f := fun f h1 h2 h3 => by
    rw [hs4, set_vec_ne _ _ h3, set_vec_ne _ _ h2, set_vec_ne _ _ h1]
  obtain ⟨s5, e5, z5, b5, g5, v5⟩ : ∃ s5, loadGrav y s4 = .ok s5 ∧ Sized (cfg c) s5 ∧ Symbs c s5 ∧ (s5.vec .G = kept c .grav ∨ kept c .grav = []) ∧
      ∀ f, f ≠ .G → s5.vec f = s4.vec f := by
    rcases loadGrav_ok h b4 with ⟨e, h0⟩ | e
    · exact ⟨s4, e, z4, b4, .inr h0, fun _ _ => rfl⟩
    · exact ⟨_, e, z4.set fun hf => absurd trivial hf, b4.setSymb .G, .inl (set_vec_same _ _ _), fun f hf => set_vec_ne _ _ hf⟩
  obtain ⟨a, b, d, e, e6, z6, hela⟩ := loadEla_ok h z5
  refine ⟨set4 s5 a b d e, ?_, z6, b5, ⟨?_, ?_, ?_, ?_, ?_, ?_, ?_, ?_, ?_, ?_⟩, ?_⟩
  · unfold loadConf
    rw [yaml, loadBody, caught_bind (loadKin_ok h hb), caught_bind (loadFrame_ok (f := .W2L) (sf := .W2L) h.base (b1.set _ _ .W2L)), kept_w2l,
      show flagsL 6 c.fw2l = pat c .W2L from rfl, ← e2, caught_bind (loadFrame_ok (f := .EE) (sf := .EE) h.tool (b2' .EE)), kept_ee,
      show flagsL 6 c.fee = pat c .EE from rfl, ← e3, caught_bind e4, caught_bind e5]
    exact e6
  · rw [set4_ne _ _ _ _ _ (by decide) (by decide) (by decide) (by decide), v5 _ (by decide), w4 _ (by decide) (by decide) (by decide), e3,
      set_vec_ne _ _ (by decide), setSymb_vec, e2, set_vec_ne _ _ (by decide), setSymb_vec, set_vec_same]
  · rw [set4_ne _ _ _ _ _ (by decide) (by decide) (by decide) (by decide), v5 _ (by decide), w4 _ (by decide) (by decide) (by decide), e3,
      set_vec_ne _ _ (by decide), setSymb_vec, e2, set_vec_same]
  · rw [set4_ne _ _ _ _ _ (by decide) (by decide) (by decide) (by decide), v5 _ (by decide), w4 _ (by decide) (by decide) (by decide), e3, set_vec_same]
  · rw [set4_ne _ _ _ _ _ (by decide) (by decide) (by decide) (by decide)]
    exact g5
  · rw [set4_ne _ _ _ _ _ (by decide) (by decide) (by decide) (by decide), v5 _ (by decide), hs4, set_vec_ne _ _ (by decide), set_vec_ne _ _ (by decide),
      set_vec_same]
  · rw [set4_ne _ _ _ _ _ (by decide) (by decide) (by decide) (by decide), v5 _ (by decide), hs4, set_vec_ne _ _ (by decide), set_vec_same]
  · intro he; rw [set4_K]; exact (hela he).1
  · intro he; rw [set4_D]; exact (hela he).2.1
  · intro he; rw [set4_Dm]; exact (hela he).2.2.1
  · intro he; rw [set4_Mm]; exact (hela he).2.2.2
  · intro k hk
    have hne : ∀ f : Field, f ∈ [Field.K, .D, .Dm, .Mm, .G, .DYN, .Dl, .REG, .EE, .W2L, .DH] → k.field ≠ f := by
      intro f hf e
      subst e
      revert hf hk
      cases k <;> decide
    rw [set4_ne _ _ _ _ _ (hne _ (by decide)) (hne _ (by decide)) (hne _ (by decide)) (hne _ (by decide)), v5 _ (hne _ (by decide)),
      w4 _ (hne _ (by decide)) (hne _ (by decide)) (hne _ (by decide)), e3, set_vec_ne _ _ (hne _ (by decide)), setSymb_vec, e2,
      set_vec_ne _ _ (hne _ (by decide)), setSymb_vec, set_vec_ne _ _ (hne _ (by decide)), setSymb_vec]

/-! ## Histories -/

/-- The vector a setter of the generated class belongs to. -/
def varKey : VarField → Key
  | .q => .q | .dq => .dq | .ddq => .ddq | .d3q => .d3q | .d4q => .d4q | .dqr => .dqr | .ddqr => .ddqr
  | .x => .x | .dx => .dx | .ddx => .ddx | .ddxr => .ddxr | .w => .w

theorem varKey_str (f : VarField) : (varKey f).str = varArg f := by cases f <;> rfl
theorem varKey_field (f : VarField) : (varKey f).field = f.field := by cases f <;> rfl
theorem varKey_isVar (f : VarField) : (varKey f).isVar = true := by cases f <;> rfl
theorem components_eq (f : VarField) : components c f = f.expected (cfg c) := by cases f <;> rfl

theorem field_inj {a b : Key} (h : a.field = b.field) : a = b := by
  have key : ∀ k : Key, Key.all.find? (fun a => a.field == k.field) = some k := by intro k; cases k <;> decide
  have := key a
  rw [h, key b] at this
  exact (Option.some.inj this).symm

/-- The two objects hold the same values of the variables. -/
structure Pair [Fl] (c : Conf) (r : Robot) (s : Obj) : Prop where
  live : Live c r (Fn.lib c)
  sized : Sized (cfg c) s
  symbs : Symbs c s
  var : ∀ k : Key, k.isVar = true → k.here c → r.arg k.str = s.vec k.field

theorem Loaded.set {s : Obj} (h : Loaded c s) {k : Key} (hk : k.isVar = true) (v : List Num) : Loaded c (s.set k.field v) := by
  have hne : ∀ f : Field, f ∈ [Field.K, .D, .Dm, .Mm, .G, .DYN, .Dl, .EE, .W2L, .DH] → (s.set k.field v).vec f = s.vec f := by
    intro f hf
    refine set_vec_ne _ _ fun e => ?_
    subst e
    revert hf hk
    cases k <;> decide
  exact ⟨by rw [hne _ (by decide)]; exact h.dh, by rw [hne _ (by decide)]; exact h.w2l, by rw [hne _ (by decide)]; exact h.ee,
    by rw [hne _ (by decide)]; exact h.grav, by rw [hne _ (by decide)]; exact h.dyn, by rw [hne _ (by decide)]; exact h.dl,
    fun he => by rw [hne _ (by decide)]; exact h.K he, fun he => by rw [hne _ (by decide)]; exact h.D he,
    fun he => by rw [hne _ (by decide)]; exact h.Dm he, fun he => by rw [hne _ (by decide)]; exact h.Mm he⟩

theorem after_append (l l' : List RCall) (r : Robot) : after (l ++ l') r = (after l r).bind (after l') := by
  induction l generalizing r with
  | nil => rfl
  | cons a l ih =>
    rw [List.cons_append, after, after]
    cases a.run r <;> first | exact ih _ | rfl

variable [Fl]

/-- One step. -/
theorem Pair.step {y : Yaml} (h : Describes y c) {s : Obj} (p : Pair c r s) {st : Step} (hf : st.Fits c) :
    ∃ r1 s1, after st.onRobot r = some r1 ∧ ArgsOnly r r1 ∧ (st.onClass y).run (cfg c) s = some s1 ∧ Pair c r1 s1 ∧ (Loaded c s → Loaded c s1) ∧
      ((∃ u, st = .load u) → Loaded c s1) := by
  cases st with
  | set f v =>
    have hv : v.length = f.expected (cfg c) := by rw [← components_eq]; exact hf
    refine ⟨r.setArgs (varArg f) v, s.set f.field v, rfl, argsOnly_set _ _ _, ?_, ⟨?_, ?_, p.symbs.set _ _, ?_⟩, fun hl => ?_, fun ⟨_, e⟩ => nomatch e⟩
    · show (setVar (cfg c) f v s).caught = _
      unfold setVar
      rw [if_pos hv]
      rfl
    · refine p.live.args rfl fun k hk => ?_
      rw [← varKey_str]
      rw [arg_setArgs, if_neg fun e => by rw [← Key.str_inj e, varKey_isVar] at hk; cases hk]
    · exact p.sized.set fun _ => hv.trans (expected_eq _ _)
    · intro k hk hh
      rw [← varKey_str, ← varKey_field]
      by_cases e : k = varKey f
      · subst e
        rw [set_vec_same, arg_setArgs, if_pos rfl]
      · rw [set_vec_ne _ _ fun e' => e (field_inj e'), arg_setArgs, if_neg fun e' => e (Key.str_inj e').symm]
        exact p.var k hk hh
    · rw [← varKey_field]
      exact hl.set (varKey_isVar f) v
  | load u =>
    obtain ⟨s1, e, z, b, hl, hv⟩ := loadConf_ok h u p.sized p.symbs
    exact ⟨r, s1, rfl, ArgsOnly.refl r, e, ⟨p.live, z, b, fun k hk hh => (p.var k hk hh).trans (hv k hk).symm⟩, fun _ => hl, fun _ => hl⟩

theorem Pair.steps {y : Yaml} (h : Describes y c) : ∀ (l : List Step) {r : Robot} {s : Obj}, Pair c r s → (∀ st ∈ l, st.Fits c) →
    ∃ r1 s1, after (l.flatMap Step.onRobot) r = some r1 ∧ ArgsOnly r r1 ∧ runAll (cfg c) (l.map (Step.onClass y)) s = some s1 ∧ Pair c r1 s1 ∧
      (Loaded c s ∨ (∃ u, .load u ∈ l) → Loaded c s1)
  | [], r, s, p, _ => ⟨r, s, rfl, ArgsOnly.refl r, rfl, p, fun hl => hl.elim id fun ⟨_, h⟩ => nomatch h⟩
  | st :: l, r, s, p, hf => by
    obtain ⟨r1, s1, e1, o1, g1, p1, l1, m1⟩ := p.step h (hf st List.mem_cons_self)
    obtain ⟨r2, s2, e2, o2, g2, p2, l2⟩ := Pair.steps h l p1 fun x hx => hf x (List.mem_cons_of_mem _ hx)
    refine ⟨r2, s2, ?_, o1.trans o2, ?_, p2, fun hl => l2 ?_⟩
    · rw [List.flatMap_cons, after_append, e1]
      exact e2
    · rw [List.map_cons, runAll, g1]
      exact g2
    · rcases hl with hl | ⟨u, hu⟩
      · exact .inl (l1 hl)
      · rcases List.mem_cons.1 hu with e | hu
        · exact .inl (m1 ⟨u, e.symm⟩)
        · exact .inr ⟨u, hu⟩

theorem pair_init (h : Done c r (Fn.lib c)) : Pair c r (init (cfg c)) := by
  refine ⟨h.live, sized_init _, symbs_init c, fun k hk hh => ?_⟩
  rw [h.arg]
  have hi : k.idx c = List.range (k.size c) := by
    unfold Key.idx
    rw [List.filter_eq_self]
    intro i _
    rw [Key.flag_var hk]
    rfl
  have hs : (cfg c).size k.field = k.size c := by
    cases k <;> first | rfl | (simp only [Key.here] at hh; simp [Key.field, Key.size, Cfg.size, cfg, hh]; done) | cases hk
  unfold kept
  rw [hi]
  show _ = List.replicate ((cfg c).size k.field) (some 0)
  rw [hs]
  apply List.ext_getElem
  · simp
  · intro i h1 h2
    simp [Key.val_var hk]

/-! ## The values the getters read -/

omit [Fl] in
theorem take_nums {k m : ℕ} {f : ℕ → ℤ} {x : ℕ → ℝ} (h : InFront k f x) (hm : m = ((List.range k).filter fun i => f i ≠ 0).length) :
    (nums k x).take m = ((List.range k).filter fun i => f i ≠ 0).map fun i => some (x i) := by
  obtain ⟨l, e⟩ := h
  have : nums k x = ((List.range k).map x).map some := by unfold nums; rw [List.map_map]; rfl
  rw [this, ← e, List.map_append, List.map_map, hm]
  exact List.take_left' (by simp)

omit [Fl] in
theorem kept_eq' (k : Key) {m : ℕ} (h : k.size c = m) : kept c k = ((List.range m).filter fun i => k.flag c i ≠ 0).map fun i => some (k.val c i) := by
  subst h
  unfold kept Key.idx
  exact congrArg _ (List.filter_congr fun i _ => decide_eq_decide.2 Iff.rfl)

omit [Fl] in
theorem length_vars (k : Key) {m : ℕ} (h : k.size c = m) : (k.vars c).length = ((List.range m).filter fun i => k.flag c i ≠ 0).length := by
  subst h
  unfold Key.vars Key.idx
  rw [List.length_map]

omit [Fl] in
theorem length_kept (k : Key) : (kept c k).length = (k.vars c).length := by simp [kept, Key.vars]

omit [Fl] in
theorem take_kept {k : Key} {v : List Num} (h : v = kept c k ∨ kept c k = []) : v.take (k.vars c).length = kept c k := by
  rcases h with h | h
  · rw [h, ← length_kept, List.take_length]
  · rw [h, ← length_kept, h]; rfl

omit [Fl] in
/-- After loading, the members with parameters begin with the values of the symbolic entries. -/
theorem Loaded.take {s : Obj} (h : Loaded c s) (ha : Aligned c) {k : Key} (hk : k.isVar = false) (hh : k.here c) :
    (s.vec k.field).take (k.vars c).length = kept c k := by
  cases k with
  | q | dq | ddq | d3q | d4q | dqr | ddqr | w | x | dx | ddx | ddxr => cases hk
  | DH => exact take_kept (.inl h.dh)
  | W2L => exact take_kept (.inl h.w2l)
  | EE => exact take_kept (.inl h.ee)
  | grav => exact take_kept h.grav
  | DYN =>
    have hs : Key.DYN.size c = 10 * c.n := Nat.mul_comm _ _
    rw [show s.vec Key.DYN.field = _ from h.dyn, take_nums ha.dyn (length_vars _ hs), kept_eq' _ hs]
    rfl
  | Dl =>
    have hs : Key.Dl.size c = c.dlO * c.n := Nat.mul_comm _ _
    rw [show s.vec Key.Dl.field = _ from h.dl, take_nums ha.dl (length_vars _ hs), kept_eq' _ hs]
    rfl
  | K =>
    have he : c.elastic = true := hh
    have hs : Key.K.size c = c.kO * c.ne := by simp [Key.size, he, Nat.mul_comm]
    rw [show s.vec Key.K.field = _ from h.K he, take_nums (ha.K he) (length_vars _ hs), kept_eq' _ hs]
    rfl
  | D =>
    have he : c.elastic = true := hh
    have hs : Key.D.size c = c.dO * c.ne := by simp [Key.size, he, Nat.mul_comm]
    rw [show s.vec Key.D.field = _ from h.D he, take_nums (ha.D he) (length_vars _ hs), kept_eq' _ hs]
    rfl
  | Dm =>
    have he : c.elastic = true := hh
    have hs : Key.Dm.size c = c.dmO * c.ne := by simp [Key.size, he, Nat.mul_comm]
    rw [show s.vec Key.Dm.field = _ from h.Dm he, take_nums (ha.Dm he) (length_vars _ hs), kept_eq' _ hs]
    rfl
  | Mm =>
    have he : c.elastic = true := hh
    have hs : Key.Mm.size c = c.ne := by simp [Key.size, he]
    rw [show s.vec Key.Mm.field = _ from h.Mm he, take_nums (ha.Mm he) (length_vars _ hs), kept_eq' _ hs]
    rfl

omit [Fl] in
theorem size_var {k : Key} (hk : k.isVar = true) (hh : k.here c) : (cfg c).size k.field = (k.vars c).length := by
  have hi : k.idx c = List.range (k.size c) := by
    unfold Key.idx
    rw [List.filter_eq_self]
    intro i _
    rw [Key.flag_var hk]
    rfl
  have hs : (cfg c).size k.field = k.size c := by
    cases k <;> first | rfl | (simp only [Key.here] at hh; simp [Key.field, Key.size, Cfg.size, cfg, hh]; done) | cases hk
  rw [hs, Key.vars, List.length_map, hi, List.length_range]

theorem Pair.holds {s : Obj} (p : Pair c r s) (h : Loaded c s) (ha : Aligned c) {k : Key} (hh : k.here c) : Holds c r s k := by
  cases hk : k.isVar with
  | false =>
    have e := p.live.par k hk hh
    exact ⟨by rw [e, length_kept], by rw [e]; exact h.take ha hk hh⟩
  | true =>
    have e := p.var k hk hh
    have hnc : ¬ k.field.Compacted := by cases k <;> first | exact id | cases hk
    have hl : (s.vec k.field).length = (k.vars c).length := (p.sized _ hnc).trans (size_var hk hh)
    exact ⟨by rw [e, hl], by rw [e, ← hl, List.take_length]⟩

omit [Fl] in
/-- The getters of a robot do not depend on its arguments. -/
theorem getter_args {r1 : Robot} (h : ArgsOnly r r1) (f : String) (s : Obj) : getter r1 f s = getter r f s := by
  rw [h]; rfl

/-! ## What agreement implies -/

omit [Fl] in
theorem bound_zip : ∀ {vs : List Var} {xs : List Num} {j : ℕ} {v : Var} {x : Num}, vs.Nodup → vs[j]? = some v → xs[j]? = some x →
    bound (List.zip vs xs) v = some x
  | [], _, _, _, _, _, h, _ => by simp at h
  | _ :: _, [], _, _, _, _, _, h => by simp at h
  | a :: vs, b :: xs, j, v, x, hn, h1, h2 => by
    obtain ⟨hna, hn⟩ := List.nodup_cons.1 hn
    cases j with
    | zero =>
      simp only [List.getElem?_cons_zero, Option.some.injEq] at h1 h2
      subst h1 h2
      simp [bound]
    | succ j =>
      rw [List.getElem?_cons_succ] at h1 h2
      have hne : a ≠ v := fun e => hna (e ▸ List.mem_of_getElem? h1)
      have := bound_zip hn h1 h2
      unfold bound at this ⊢
      rw [List.zip_cons_cons, List.find?_cons_of_neg (by simpa using hne)]
      exact this

omit [Fl] in
theorem evalWith_entry {A : SX} {inp : List (List Var)} {l : List (Var × Num)} (h : ∀ p ∈ l, p.2 ≠ none) {i j : ℕ} (hi : i < A.rows) (hj : j < A.cols) :
    (CFun.evalWith ⟨inp, A⟩ l)[i + A.rows * j]? = some (some ((A.e i j).eval fun v => ((bound l v).join).getD 0)) := by
  unfold CFun.evalWith
  rw [if_pos h, List.getElem?_map]
  simp only
  rw [getElem?_elements hi hj]
  rfl

omit [Fl] in
theorem mem_zip_some {vs : List Var} {f : ℕ → ℝ} {l : List ℕ} : ∀ p ∈ List.zip vs (l.map fun i => (some (f i) : Num)), p.2 ≠ none := by
  intro p hp
  obtain ⟨_, h⟩ := List.of_mem_zip (show (p.1, p.2) ∈ _ from hp)
  obtain ⟨i, _, e⟩ := List.mem_map.1 h
  rw [← e]
  exact fun h => nomatch h

omit [Fl] in
/-- When getter and `get` agree on a function, every entry has the same value under the two bindings of the inputs. -/
theorem agree_entry {s : Obj} {g : Reg} {ks : List Key} (hr : HasReg c r g ks) {li lw : List (List (Var × Num))} (hin : ks.mapM (inVals c r) = some li)
    (hread : ks.mapM (readKey c s) = some lw) (h1 : ∀ p ∈ li.flatten, p.2 ≠ none) (h2 : ∀ p ∈ lw.flatten, p.2 ≠ none)
    (hag : ∃ m r', Robot.get g.name r = .ok m r' ∧ getter r g.name s = .value m) {a b : ℕ} (ha : a < g.expr.rows) (hb : b < g.expr.cols) :
    ((g.expr.e a b).eval fun v => ((bound li.flatten v).join).getD 0) = (g.expr.e a b).eval fun v => ((bound lw.flatten v).join).getD 0 := by
  obtain ⟨mat, r', g1, g2⟩ := hag
  obtain ⟨r'', _, g3⟩ := get_reg hr
  have g4 := getter_reg hr s
  rw [hin] at g3
  rw [hread] at g4
  simp only at g3 g4
  have h3 := g1.symm.trans g3
  have h4 := g2.symm.trans g4
  injection h3 with h3
  injection h4 with h4
  rw [h3] at h4
  have e := (Mat.mk.inj h4).2.2
  have z1 := evalWith_entry (A := g.expr) (inp := ks.map (Key.vars c)) h1 ha hb
  have z2 := evalWith_entry (A := g.expr) (inp := ks.map (Key.vars c)) h2 ha hb
  rw [e, z2] at z1
  exact (Option.some.inj (Option.some.inj z1)).symm

/-- A diagonal matrix of parameters: when getter and `get` agree, each symbolic entry has the value found at the place where the getter reads. -/
theorem diag_needs {s : Obj} (p : Pair c r s) {F : Fn} (hv : F.Valid c) {k : Key} (hk : k.isVar = false) (hh : k.here c) (h1 : F.sure = []) (h2 : F.pos c.n = [k])
    {m ord o : ℕ} (hex : F.expr (base c) c = diagPar (kmod c k) m ord o)
    (hvec : s.vec k.field = nums (k.size c) (k.val c)) (hag : ∃ m r', Robot.get F.name r = .ok m r' ∧ getter r F.name s = .value m) {j a : ℕ} (ha : a < m)
    (hj : (k.idx c)[j]? = some (a * ord + o)) : k.val c (a * ord + o) = k.val c j := by
  obtain ⟨ks, hr⟩ := p.live.reg (F.reg c) ⟨F, hv, rfl⟩
  have hmem := List.mem_of_getElem? hj
  have hi : a * ord + o < k.size c ∧ k.flag c (a * ord + o) ≠ 0 := by
    unfold Key.idx at hmem
    simpa using List.mem_filter.1 hmem
  have hks : ks = [k] := by
    obtain ⟨sure, pos, e1, e2, e⟩ := hr.keys
    have e1' : sure = F.sure := List.map_injective_iff.2 (fun a b e => Key.str_inj e) e1.symm
    have e2' : pos = F.pos c.n := List.map_injective_iff.2 (fun a b e => Key.str_inj e) e2.symm
    rw [e, e1', e2', h1, h2]
    have : (k.flags c).any (fun v => v ≠ 0) = true := by
      rw [List.any_eq_true]
      exact ⟨k.flag c (a * ord + o), List.mem_map.2 ⟨_, List.mem_range.2 hi.1, rfl⟩, by simpa using hi.2⟩
    rw [List.nil_append, List.filter_cons_of_pos (by convert this), List.filter_nil]
  subst hks
  have hexr : (F.reg c).expr = diagPar (kmod c k) m ord o := hex
  have hlen : (k.vars c).length ≤ (s.vec k.field).length := by
    rw [hvec, length_nums, length_vars k rfl]
    exact le_trans (List.length_filter_le _ _) (by simp)
  have hlk : (k.idx c).length = (k.vars c).length := by simp [Key.vars]
  have hjl : j < (k.vars c).length := by
    rw [← hlk]
    exact (List.getElem?_eq_some_iff.1 hj).1
  have hvj : (k.vars c)[j]? = some ⟨k.sym, a * ord + o⟩ := by
    unfold Key.vars
    rw [List.getElem?_map, hj]
    rfl
  have hread : [k].mapM (readKey c s) = some [List.zip (k.vars c) (nums (k.size c) (k.val c))] := by
    have : readKey c s k = some (List.zip (k.vars c) (nums (k.size c) (k.val c))) := by
      unfold readKey readInput
      rw [if_pos hlen, hvec]
    rw [List.mapM_cons, this]
    rfl
  have hin : [k].mapM (inVals c r) = some [List.zip (k.vars c) (kept c k)] := by
    have e := p.live.par k hk hh
    have : inVals c r k = some (List.zip (k.vars c) (kept c k)) := by
      unfold inVals fitInput
      rw [e, if_pos (length_kept k)]
      rfl
    rw [List.mapM_cons, this]
    rfl
  have hA : (diagPar (kmod c k) m ord o).e a a = .var ⟨k.sym, a * ord + o⟩ := by
    show (if a < m ∧ a = a then _ else _) = _
    rw [if_pos ⟨ha, rfl⟩, kmod_here hh, Key.mat_sym hi.1 hi.2]
  have z1 := agree_entry hr hin hread (by rw [List.flatten_singleton]; exact mem_zip_some) (by rw [List.flatten_singleton]; exact mem_zip_some) hag
    (a := a) (b := a) (by rw [hexr]; exact ha) (by rw [hexr]; exact ha)
  have hks : j < k.size c := by
    have := hlen
    rw [hvec, length_nums] at this
    omega
  have b1 : bound (List.zip (k.vars c) (kept c k)) ⟨k.sym, a * ord + o⟩ = some (some (k.val c (a * ord + o))) :=
    bound_zip k.nodup_vars hvj (by unfold kept; rw [List.getElem?_map, hj]; rfl)
  have b2 : bound (List.zip (k.vars c) (nums (k.size c) (k.val c))) ⟨k.sym, a * ord + o⟩ = some (some (k.val c j)) :=
    bound_zip k.nodup_vars hvj (by unfold nums; rw [List.getElem?_map, List.getElem?_range hks]; rfl)
  rw [hexr, hA, List.flatten_singleton, List.flatten_singleton] at z1
  simp only [Expr.eval, b1, b2] at z1
  exact z1

omit [Fl] in
/-- The condition entry by entry. -/
theorem inFront_of {k : Key} (h : ∀ j i, (k.idx c)[j]? = some i → k.val c i = k.val c j) {m : ℕ} (hm : k.size c = m) : InFront m (k.flag c) (k.val c) := by
  subst hm
  have hidx : ((List.range (k.size c)).filter fun i => k.flag c i ≠ 0) = k.idx c := by
    unfold Key.idx
    exact List.filter_congr fun i _ => decide_eq_decide.2 Iff.rfl
  refine ⟨((List.range (k.size c)).map (k.val c)).drop (k.idx c).length, ?_⟩
  have hle : (k.idx c).length ≤ k.size c := le_trans (List.length_filter_le _ _) (by simp)
  have : (k.idx c).map (k.val c) = ((List.range (k.size c)).map (k.val c)).take (k.idx c).length := by
    apply List.ext_getElem?
    intro j
    by_cases hj : j < (k.idx c).length
    · rw [List.getElem?_take_of_lt hj, List.getElem?_map, List.getElem?_map, List.getElem?_eq_getElem hj, List.getElem?_range (by omega)]
      simp only [Option.map_some]
      rw [h j _ (List.getElem?_eq_getElem hj)]
    · rw [List.getElem?_eq_none (by simpa using hj), List.getElem?_eq_none (by rw [List.length_take]; omega)]
  rw [hidx, this]
  exact List.take_append_drop _ _

end Wrap

end

end Thunder
