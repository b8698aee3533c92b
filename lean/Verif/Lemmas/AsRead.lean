import Verif.Spec.AsRead
import Verif.Lemmas.SystemClass
import Mathlib.Analysis.Calculus.Deriv.Pow

/-!
# Objects of the generated class into which a file has been loaded, whatever is symbolic
-/

open scoped Classical

namespace Thunder

noncomputable section

open Spec Robot Wrap

variable {c : Conf}

theorem before_le (f : ℕ → ℤ) (k : ℕ) : before f k ≤ k := by
  unfold before
  exact (List.length_filter_le _ _).trans (by simp)

theorem before_succ (f : ℕ → ℤ) (k : ℕ) : before f (k + 1) = before f k + if f k = 0 then 0 else 1 := by
  unfold before
  rw [List.range_succ, List.filter_append, List.length_append]
  by_cases h : f k = 0 <;> simp [h]

theorem map_fromFront {α : Type} (f : ℕ → ℤ) (x : ℕ → ℝ) (h : ℝ → α) (k : ℕ) :
    (((List.range k).filter fun i => f i ≠ 0).map fun i => h (fromFront f x i)) = (List.range (before f k)).map fun i => h (x i) := by
  induction k with
  | zero => rfl
  | succ k ih =>
    rw [List.range_succ, List.filter_append, List.map_append, ih, before_succ]
    by_cases h0 : f k = 0
    · simp [h0]
    · simp [h0, List.range_succ, fromFront]

theorem nums_prefix {m k : ℕ} (h : m ≤ k) (x : ℕ → ℝ) : nums m x <+: nums k x := by
  obtain ⟨d, rfl⟩ := Nat.exists_eq_add_of_le h
  unfold nums
  rw [List.range_add, List.map_append]
  exact List.prefix_append _ _

/-- The first values of a full vector are read as the symbolic ones. -/
theorem symbolics_fromFront (k : ℕ) (f : ℕ → ℤ) (x : ℕ → ℝ) : symbolics k f (fromFront f x) <+: nums k x := by
  have := map_fromFront f x (fun v => (some v : Num)) k
  unfold symbolics
  rw [this]
  exact nums_prefix (before_le f k) x

/-- Nothing is changed exactly when the symbolic values are in front. -/
theorem inFront_iff {k : ℕ} {f : ℕ → ℤ} {x : ℕ → ℝ} : InFront k f x ↔ ∀ i < k, fromFront f x i = x i := by
  have hp : ((List.range (before f k)).map x) <+: (List.range k).map x := by
    obtain ⟨d, hd⟩ := Nat.exists_eq_add_of_le (before_le f k)
    rw [show List.range k = List.range (before f k + d) by rw [← hd], List.range_add, List.map_append]
    exact List.prefix_append _ _
  have hm : ((List.range k).filter fun i => f i ≠ 0).map (fromFront f x) = (List.range (before f k)).map x := map_fromFront f x id k
  have hlen : (((List.range k).filter fun i => f i ≠ 0).map x).length = ((List.range (before f k)).map x).length := by
    rw [List.length_map, List.length_map, List.length_range]
    rfl
  constructor
  · rintro ⟨l, hl⟩ i hi
    by_cases h0 : f i = 0
    · simp [fromFront, h0]
    have h1 : ((List.range k).filter fun i => f i ≠ 0).map x <+: (List.range k).map x := ⟨l, hl⟩
    have h2 : ((List.range k).filter fun i => f i ≠ 0).map x = (List.range (before f k)).map x :=
      (List.prefix_of_prefix_length_le h1 hp hlen.le).eq_of_length hlen
    rw [← hm] at h2
    exact (List.map_inj_left.1 h2 i (List.mem_filter.2 ⟨List.mem_range.2 hi, by simpa using h0⟩)).symm
  · intro h
    have : ((List.range k).filter fun i => f i ≠ 0).map x = (List.range (before f k)).map x := by
      rw [← hm]
      exact List.map_congr_left fun i hi => (h i (List.mem_range.1 (List.mem_filter.1 hi).1)).symm
    unfold InFront
    rw [this]
    exact hp

theorem retuned_asRead (c : Conf) : Retuned c (asRead c) :=
  ⟨rfl, rfl, rfl, rfl, rfl, rfl, rfl, rfl, rfl, rfl, rfl, rfl, rfl, rfl, rfl, rfl, fun _ _ => rfl, fun _ _ => rfl, fun _ _ => rfl, fun _ _ => rfl,
    fun _ h => if_pos h, fun _ h => if_pos h, fun _ h => if_pos h, fun _ h => if_pos h, fun _ h => if_pos h, fun _ h => if_pos h⟩

theorem retuned_cleared (c : Conf) : Retuned c (cleared c) :=
  ⟨rfl, rfl, rfl, rfl, rfl, rfl, rfl, rfl, rfl, rfl, rfl, rfl, rfl, rfl, rfl, rfl, fun _ h => if_pos h, fun _ h => if_pos h, fun _ h => if_pos h,
    fun _ h => if_pos h, fun _ h => if_pos h, fun _ h => if_pos h, fun _ h => if_pos h, fun _ h => if_pos h, fun _ h => if_pos h, fun _ h => if_pos h⟩

/-- After loading a file. -/
theorem Wrap.Loaded.reads {c : Conf} {s : State (asRead c)} {o : Obj} (h : Loaded c o) (hm : Moves (asRead c) s o) : Stores (asRead c) s o := by
  have key : ∀ (k : Key) {m : ℕ} {f : ℕ → ℤ} {v : ℕ → ℝ}, k.size c = m → k.flag c = f → k.val c = v →
      (o.vec k.field = kept c k ∨ kept c k = []) → symbolics m f v <+: o.vec k.field := fun k _ _ _ h1 h2 h3 h4 => by
    rw [symbolics_eq h1 h2 h3]
    rcases h4 with h4 | h4
    · rw [h4]
    · rw [h4]; exact List.nil_prefix
  have sym : ∀ {m m' : ℕ} (f : ℕ → ℤ) (x : ℕ → ℝ) {v : List Num}, v = nums m x → m' = m → symbolics m' f (fromFront f x) <+: v := by
    rintro m _ f x _ rfl rfl
    exact symbolics_fromFront _ f x
  exact { hm with
    DH := key .DH (Nat.mul_comm _ _) rfl rfl (.inl h.dh)
    W2L := key .W2L rfl rfl rfl (.inl h.w2l)
    EE := key .EE rfl rfl rfl (.inl h.ee)
    grav := key .grav rfl rfl rfl h.grav
    DYN := sym c.fdyn c.dyn h.dyn rfl
    Dl := fun _ => sym c.fdl c.dl h.dl (Nat.mul_comm _ _)
    K := fun he => sym c.fK c.K (h.K he) (Nat.mul_comm _ _)
    D := fun he => sym c.fD c.D (h.D he) (Nat.mul_comm _ _)
    Dm := fun he => sym c.fDm c.Dm (h.Dm he) (Nat.mul_comm _ _)
    Mm := fun he => sym c.fMm c.Mm (h.Mm he) rfl }

/-! ## Loading another file -/

theorem retuned_over (c₀ c : Conf) : Retuned c₀ (over c₀ c) :=
  ⟨rfl, rfl, rfl, rfl, rfl, rfl, rfl, rfl, rfl, rfl, rfl, rfl, rfl, rfl, rfl, rfl, fun _ h => if_pos h, fun _ h => if_pos h, fun _ h => if_pos h,
    fun _ h => if_pos h, fun _ h => if_pos h, fun _ h => if_pos h, fun _ h => if_pos h, fun _ h => if_pos h, fun _ h => if_pos h, fun _ h => if_pos h⟩

theorem symbolics_choose (k : ℕ) (f : ℕ → ℤ) (a b : ℕ → ℝ) : symbolics k f (choose f a b) = symbolics k f b := by
  unfold symbolics
  refine List.map_congr_left fun i hi => ?_
  have h0 : f i ≠ 0 := by simpa using (List.mem_filter.1 hi).2
  rw [choose, if_neg h0]

theorem Spec.SameForm.retuned {c₀ c : Conf} (h : Retuned c₀ c) : SameForm c₀ c :=
  ⟨h.types, h.elastic, h.kO, h.dO, h.dmO, h.dlO, h.fdh, h.fw2l, h.fee, h.fg, h.fdyn, h.fdl, h.fK, h.fD, h.fDm, h.fMm⟩

theorem Spec.SameForm.n {c₀ c : Conf} (h : SameForm c₀ c) : c.n = c₀.n := congrArg List.length h.types
theorem Spec.SameForm.ne {c₀ c : Conf} (h : SameForm c₀ c) : c.ne = c₀.ne := by unfold Conf.ne; rw [h.types]

theorem Spec.SameForm.cfg {c₀ c : Conf} (h : SameForm c₀ c) : Wrap.cfg c = Wrap.cfg c₀ := by
  unfold Wrap.cfg
  rw [h.n, h.ne, h.kO, h.dO, h.dmO, h.dlO]

theorem Spec.SameForm.joints {c₀ c : Conf} (h : SameForm c₀ c) (hj : JointsOk c₀) : JointsOk c := by
  unfold JointsOk at *
  rw [h.n, h.types]
  exact hj

/-- After loading a file of the same form. -/
theorem Wrap.Loaded.over {c₀ c : Conf} (hf : SameForm c₀ c) {o : Obj} (h : Loaded c o) {s : State (Spec.over c₀ c)} (hm : Moves (Spec.over c₀ c) s o) :
    Stores (Spec.over c₀ c) s o := by
  have key : ∀ (k : Key) {m : ℕ} {f : ℕ → ℤ} {a v : ℕ → ℝ}, k.size c = m → k.flag c = f → k.val c = v →
      (o.vec k.field = kept c k ∨ kept c k = []) → symbolics m f (choose f a v) <+: o.vec k.field := fun k _ _ _ _ h1 h2 h3 h4 => by
    rw [symbolics_choose, symbolics_eq h1 h2 h3]
    rcases h4 with h4 | h4
    · rw [h4]
    · rw [h4]; exact List.nil_prefix
  have sym : ∀ {m m' : ℕ} (f : ℕ → ℤ) (a x : ℕ → ℝ) {v : List Num}, v = nums m x → m' = m → symbolics m' f (choose f a (fromFront f x)) <+: v := by
    rintro m _ f a x _ rfl rfl
    rw [symbolics_choose]
    exact symbolics_fromFront _ f x
  have n := hf.n
  have ne := hf.ne
  have el : (Spec.over c₀ c).elastic = true → c.elastic = true := fun he => hf.elastic.trans he
  exact { hm with
    DH := key .DH ((Nat.mul_comm _ _).trans (by rw [n]; rfl)) hf.fdh rfl (.inl h.dh)
    W2L := key .W2L rfl hf.fw2l rfl (.inl h.w2l)
    EE := key .EE rfl hf.fee rfl (.inl h.ee)
    grav := key .grav rfl hf.fg rfl h.grav
    DYN := sym c₀.fdyn _ c.dyn h.dyn (by rw [n]; rfl)
    Dl := fun _ => sym c₀.fdl _ c.dl h.dl (by rw [Nat.mul_comm, n, hf.dlO]; rfl)
    K := fun he => sym c₀.fK _ c.K (h.K (el he)) (by rw [Nat.mul_comm, ne, hf.kO]; rfl)
    D := fun he => sym c₀.fD _ c.D (h.D (el he)) (by rw [Nat.mul_comm, ne, hf.dO]; rfl)
    Dm := fun he => sym c₀.fDm _ c.Dm (h.Dm (el he)) (by rw [Nat.mul_comm, ne, hf.dmO]; rfl)
    Mm := fun he => sym c₀.fMm _ c.Mm (h.Mm (el he)) (by rw [ne]; rfl) }

/-! ## Comparing answers -/

theorem returns_data {R R' : String → Mat → Prop} {f f' : String} {m n : ℕ} {A : Matrix (Fin m) (Fin n) ℝ} (h : Returns R f A) (h' : Returns R' f' A) :
    ∃ mat, R f mat ∧ R' f' mat := by
  obtain ⟨⟨a, b, d⟩, h0, h1, h2, h3, h4⟩ := h
  obtain ⟨⟨a', b', d'⟩, h0', h1', h2', h3', h4'⟩ := h'
  simp only at h1 h2 h3 h4 h1' h2' h3' h4'
  subst h1 h2 h1' h2'
  have : d = d' := by
    refine List.ext_getElem? fun k => ?_
    by_cases hk : k < a' * b'
    · have ha : 0 < a' := Nat.pos_of_ne_zero fun e => by simp [e] at hk
      have e1 := h4 ⟨k % a', Nat.mod_lt _ ha⟩ ⟨k / a', Nat.div_lt_of_lt_mul hk⟩
      have e2 := h4' ⟨k % a', Nat.mod_lt _ ha⟩ ⟨k / a', Nat.div_lt_of_lt_mul hk⟩
      simp only [Nat.mod_add_div] at e1 e2
      rw [e1, e2]
    · rw [List.getElem?_eq_none (by omega), List.getElem?_eq_none (by omega)]
  subst this
  exact ⟨_, h0, h0'⟩

theorem returns_inj {R R' : String → Mat → Prop} {f : String} {m n : ℕ} {A B : Matrix (Fin m) (Fin n) ℝ} (h : Returns R f A) (h' : Returns R' f B)
    (hR : ∀ a b, R f a → R f b → a = b) (hR' : ∀ a b, R' f a → R' f b → a = b) (hs : ∃ mat, R f mat ∧ R' f mat) : A = B := by
  obtain ⟨x, x0, x1⟩ := hs
  obtain ⟨a, h0, -, -, -, h4⟩ := h
  obtain ⟨b, h0', -, -, -, h4'⟩ := h'
  obtain rfl := hR _ _ h0 x0
  obtain rfl := hR' _ _ h0' x1
  ext i j
  have := (h4 i j).symm.trans (h4' i j)
  simpa using this

theorem answers_unique {r : Robot} {f : String} (a b : Mat) (h : answers r f a) (h' : answers r f b) : a = b := by
  obtain ⟨r₁, e₁⟩ := h
  obtain ⟨r₂, e₂⟩ := h'
  rw [e₁] at e₂
  exact (Res.ok.inj e₂).1

theorem classAnswers_unique {g : Robot} {o : Obj} {f : String} (a b : Mat) (h : classAnswers g o f a) (h' : classAnswers g o f b) : a = b := by
  unfold classAnswers at h h'
  rw [h] at h'
  exact Got.value.inj h'

/-- The same variables of motion. -/
def State.read {c : Conf} (s : Spec.State c) : Spec.State (asRead c) := ⟨s.q, s.dq, s.ddq, s.d3q, s.dqr, s.ddqr, s.w, s.x, s.dx, s.ddx⟩

theorem moves_read {s : Spec.State c} {o : Obj} (h : Moves c s o) : Moves (asRead c) (State.read s) o :=
  ⟨h.q, h.dq, h.ddq, h.d3q, h.dqr, h.ddqr, h.w, h.x, h.dx, h.ddx⟩

/-- What has to be the same for a vector of parameters. -/
def SameKey (c : Conf) (k : Key) : Prop := ∀ i < k.size c, k.val (asRead c) i = k.val c i

theorem env_read [Fl] (s : Spec.State c) {k : Key} (h : k.isVar = true ∨ SameKey c k) {v : Var} (hv : v ∈ k.vars c) :
    env (asRead c) (State.read s) v = env c s v := by
  obtain ⟨i, hi, rfl⟩ := List.mem_map.1 hv
  have hi : i < k.size c := List.mem_range.1 (List.mem_filter.1 hi).1
  rw [env_key, env_key]
  rcases h with h | h
  · cases k <;> first | rfl | cases h
  · cases hk : k.isVar with
    | true => cases k <;> first | rfl | cases hk
    | false =>
      rw [at_par _ hk, at_par _ hk]
      exact h i hi

/-- A function none of whose vectors has changed. -/
theorem val_read [Fl] {y : Yaml} {r : Robot} {s : Spec.State c} (hr : Running y c s r) {f : Fn} (hf : f.Valid c) (h : ∀ k ∈ f.pos c.n, k.isVar = true ∨ SameKey c k)
    (hs : ∀ k ∈ f.sure, k.isVar = true) (m n : ℕ) :
    SX.val (env (asRead c) (State.read s)) (f.expr (base (asRead c)) (asRead c)) m n = SX.val (env c s) (f.expr (base c) c) m n := by
  obtain ⟨c₀, hd, hj, hc⟩ := hr.file
  obtain ⟨ks, H⟩ := (live_of hd hj hr.use hc hr.args).reg (f.reg c) ⟨f, hf, rfl⟩
  rw [(retuned_asRead c).expr]
  ext i j
  refine Expr.eval_congr fun v hv => ?_
  obtain ⟨k, hk, hvk⟩ := H.over i j hv
  refine env_read s ?_ hvk
  obtain ⟨su, po, h1, h2, rfl⟩ := H.keys
  have inj : Function.Injective Key.str := fun a b => Key.str_inj
  obtain rfl : su = f.sure := List.map_injective_iff.2 inj h1.symm
  obtain rfl : po = f.pos c.n := List.map_injective_iff.2 inj h2.symm
  rcases List.mem_append.1 hk with hk | hk
  · exact .inl (hs k hk)
  · exact h k (List.mem_filter.1 hk).1

/-! ## A motion with given derivatives -/

/-- The position, velocity and acceleration at time `t` with the derivatives `a`, `b`, `d` at time zero. -/
def cubic (p a b d t : ℝ) : ℝ := p + a * t + b * (t ^ 2 / 2) + d * (t ^ 3 / 6)
def cubic₁ (a b d t : ℝ) : ℝ := a + b * t + d * (t ^ 2 / 2)
def cubic₂ (b d t : ℝ) : ℝ := b + d * t

theorem cubic_deriv (p a b d t : ℝ) : HasDerivAt (cubic p a b d) (cubic₁ a b d t) t := by
  have := ((((hasDerivAt_const t p).add ((hasDerivAt_id t).const_mul a)).add ((((hasDerivAt_id t).pow 2).div_const 2).const_mul b)).add
    ((((hasDerivAt_id t).pow 3).div_const 6).const_mul d))
  exact this.congr_deriv (by simp only [cubic₁, id, Nat.cast_ofNat, Nat.add_one_sub_one, pow_one]; ring)

theorem cubic₁_deriv (a b d t : ℝ) : HasDerivAt (cubic₁ a b d) (cubic₂ b d t) t := by
  have := (((hasDerivAt_const t a).add ((hasDerivAt_id t).const_mul b)).add ((((hasDerivAt_id t).pow 2).div_const 2).const_mul d))
  exact this.congr_deriv (by simp [cubic₂])

theorem cubic₂_deriv (b d t : ℝ) : HasDerivAt (cubic₂ b d) d t := by
  have := ((hasDerivAt_const t b).add ((hasDerivAt_id t).const_mul d))
  exact this.congr_deriv (by simp)

end

end Thunder
