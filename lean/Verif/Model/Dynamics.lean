import Verif.Model.Kinematics

/-!
# Symbolic dynamics (`src/thunder/src/dynamics.cpp`)

The matrices built by `dynamics.cpp` as functions of the symbolic inputs (`Base`).
-/

open scoped Classical

namespace Thunder

noncomputable section

/-- `dq_select`, src/dynamics.cpp:45-56: the `n × n²` matrix whose `i`-th `n×n` block is `dq(i) * eye(n)`. -/
def dqSelect (dq : SX) : SX :=
  let n := dq.rows
  ⟨n, n * n, fun a c => if a < n ∧ c < n * n then Expr.smul ((SX.eye n).e a (c % n)) (dq.e (c / n) 0) else .const 0, dq.ok⟩

/-- `reshape(A, n, n)` of an `n²×1` column (column-major). -/
def reshapeSq (A : SX) (n : ℕ) : SX :=
  ⟨n, n, fun a b => if a < n ∧ b < n then A.e (a + b * n) 0 else .const 0, A.ok ∧ A.rows * A.cols = n * n⟩

/-- `stdCmatrix`, src/dynamics.cpp:58-71. -/
def stdCmatrix (M q dq dqSel : SX) : SX :=
  let n := q.rows
  let jacM := SX.jacobian M q
  let C123 := reshapeSq (SX.mtimes jacM dq) n
  let C132 := SX.mtimes dqSel jacM
  let C231 := SX.transp C132
  SX.divc (SX.sub (SX.add C123 C132) C231) 2

/-- `0.5 * jacobian(a, x) * v` as a scalar expression (src/dynamics.cpp:87-88). -/
def halfTerm (a x v : Expr) : Expr := Expr.smul (Expr.smul (.const 0.5) (SX.Dx x a)) v

/-- `stdCmatrix_classic`, src/dynamics.cpp:73-98.  The accumulation `C(h,j) = C(h,j) + …` over `k` is written as a sum. -/
def stdCmatrixClassic (M q dq : SX) : SX :=
  let n := q.rows
  let C123 : SX := ⟨n, n, fun h j => if h < n ∧ j < n then
    sumN n fun k => halfTerm (M.e h j) (q.e k 0) (dq.e k 0) else .const 0, M.ok ∧ q.ok ∧ dq.ok ∧ M.rows = n ∧ M.cols = n ∧
      dq.rows = n ∧ ∀ k < n, SX.IsSym (q.e k 0)⟩
  let C132 : SX := ⟨n, n, fun h j => if h < n ∧ j < n then
    sumN n fun k => halfTerm (M.e h k) (q.e j 0) (dq.e k 0) else .const 0, True⟩
  SX.sub (SX.add C123 C132) (SX.transp C132)

/-- Odd power law `Σ_ord pow(v, 2*ord+1) * p(base+ord)`, the accumulation of src/dynamics.cpp:315-316. -/
def oddLaw (v : Expr) (p : SX) (base order : ℕ) : Expr :=
  sumN order fun ord => Expr.smul (.pow v (2 * ord + 1)) (p.e (base + ord) 0)

/-- One friction term, src/dynamics.cpp:321-325 (also 330-334 and 385-389): `pow(v, ord+1)` for even `ord`,
`sqrt(pow(v,2)) * pow(v, ord)` for odd `ord`. -/
def fricTerm (v : Expr) (ord : ℕ) : Expr :=
  if ord % 2 = 0 then .pow v (ord + 1) else Expr.smul (.sqrt (.pow v 2)) (.pow v ord)

/-- Friction law `Σ_ord fricTerm(v, ord) * p(base+ord)`. -/
def fricLaw (v : Expr) (p : SX) (base order : ℕ) : Expr :=
  sumN order fun ord => Expr.smul (fricTerm v ord) (p.e (base + ord) 0)

/-- Diagonal matrix `A(i,i) = p(i*order + ord)`, e.g. src/dynamics.cpp:317-318, 390-391. -/
def diagPar (p : SX) (m order ord : ℕ) : SX :=
  ⟨m, m, fun i j => if i < m ∧ i = j then p.e (i * order + ord) 0 else .const 0, p.ok ∧ m * order ≤ p.rows⟩

namespace Base

variable [Fl] (B : Base)

/-- `STD_PAR_LINK`, library/robot.h:104. -/
def nPar : ℕ := 10

/-- `_mass_vec_[i]`, `createInertialParameters`, src/dynamics.cpp:24. -/
def mass (i : ℕ) : Expr := B.dyn.e (i * nPar) 0
/-- `_distCM_[i]`, src/dynamics.cpp:25-27. -/
def com (i : ℕ) : SX :=
  { col3 (B.dyn.e (i * nPar + 1) 0) (B.dyn.e (i * nPar + 2) 0) (B.dyn.e (i * nPar + 3) 0) with
    ok := B.dyn.ok ∧ i * nPar + 10 ≤ B.dyn.rows }
/-- `_J_3x3_[i]`, src/dynamics.cpp:29-39. -/
def inertia (i : ℕ) : SX :=
  { mat33 (B.dyn.e (i * nPar + 4) 0) (B.dyn.e (i * nPar + 5) 0) (B.dyn.e (i * nPar + 6) 0)
          (B.dyn.e (i * nPar + 5) 0) (B.dyn.e (i * nPar + 7) 0) (B.dyn.e (i * nPar + 8) 0)
          (B.dyn.e (i * nPar + 6) 0) (B.dyn.e (i * nPar + 8) 0) (B.dyn.e (i * nPar + 9) 0) with
    ok := B.dyn.ok ∧ i * nPar + 10 ≤ B.dyn.rows }

/-- `O_Ci`, src/dynamics.cpp:140. -/
def Ocm (i : ℕ) : SX := SX.add (B.P0 (i + 1)) (SX.mtimes (B.R0 (i + 1)) (B.com i))

/-- `Ji_v[i]` of `DHJacCM`, src/dynamics.cpp:124-182. -/
def Jcv (i : ℕ) : SX := B.posJac (B.Ocm i) i
/-- `Ji_w[i]` of `DHJacCM`. -/
def Jcw (i : ℕ) : SX := B.orJac i
/-- `Ji[i]` of `DHJacCM`, registered as `J_cm_{i+1}` (src/dynamics.cpp:182-185). -/
def Jcm (i : ℕ) : SX := SX.vcat (B.Jcv i) (B.Jcw i)

/-- `Mi`, src/dynamics.cpp:242. -/
def Mi (i : ℕ) : SX :=
  SX.add (SX.scale (B.mass i) (SX.mtimes (SX.transp (B.Jcv i)) (B.Jcv i)))
    (SX.mtimes (SX.mtimes (SX.mtimes (SX.mtimes (SX.transp (B.Jcw i)) (B.R0 (i + 1))) (B.inertia i))
      (SX.transp (B.R0 (i + 1)))) (B.Jcw i))

/-- `M` after `k` iterations of the loop src/dynamics.cpp:232-249. -/
def Macc : ℕ → SX
  | 0 => SX.zeros B.n B.n
  | k + 1 => SX.add (Macc k) (B.Mi k)

/-- Registered `M`. -/
def M : SX := B.Macc B.n

/-- `Gi`, src/dynamics.cpp:247. -/
def Gi (i : ℕ) : SX := SX.scale (Expr.sneg (B.mass i)) (SX.mtimes (SX.transp B.g) (B.Jcv i))

/-- `G` after `k` iterations, src/dynamics.cpp:248. -/
def Gacc : ℕ → SX
  | 0 => SX.zeros B.n 1
  | k + 1 => SX.add (Gacc k) (SX.transp (B.Gi k))

/-- Registered `G`. -/
def G : SX := B.Gacc B.n

/-- Registered `C`, src/dynamics.cpp:251. -/
def C : SX := stdCmatrix B.M B.q B.dq (dqSelect B.dq)
/-- Registered `C_std`, src/dynamics.cpp:252. -/
def Cstd : SX := stdCmatrixClassic B.M B.q B.dq

/-- `dM`, `ddM`: src/dynamics.cpp:419-420. -/
def Mdot : SX := SX.jtimes B.M B.q B.dq
/-- `ddM`: src/dynamics.cpp:420. -/
def Mddot : SX := SX.add (SX.jtimes B.Mdot B.q B.dq) (SX.jtimes B.Mdot B.dq B.ddq)
/-- `dC`, `ddC`: src/dynamics.cpp:427-428. -/
def Cdot : SX := SX.add (SX.jtimes B.C B.q B.dq) (SX.jtimes B.C B.dq B.ddq)
/-- `ddC`: src/dynamics.cpp:428. -/
def Cddot : SX :=
  SX.add (SX.add (SX.jtimes B.Cdot B.q B.dq) (SX.jtimes B.Cdot B.dq B.ddq)) (SX.jtimes B.Cdot B.ddq B.d3q)
/-- `dG`, `ddG`: src/dynamics.cpp:435-436. -/
def Gdot : SX := SX.jtimes B.G B.q B.dq
/-- `ddG`: src/dynamics.cpp:436. -/
def Gddot : SX := SX.add (SX.jtimes B.Gdot B.q B.dq) (SX.jtimes B.Gdot B.dq B.ddq)

/-- `dl`, `compute_Dl`, src/dynamics.cpp:372-403. -/
def dlFun (order : ℕ) : SX :=
  ⟨B.n, 1, fun i j => if i < B.n ∧ j = 0 then fricLaw (B.dq.e i 0) B.dl (i * order) order else .const 0,
    B.dq.ok ∧ B.dl.ok ∧ B.n ≤ B.dq.rows ∧ B.n * order ≤ B.dl.rows⟩

/-- `k`, `compute_elastic`, src/dynamics.cpp:314-316; `m` = number of elastic joints. -/
def kFun (m order : ℕ) : SX :=
  ⟨m, 1, fun i j => if i < m ∧ j = 0 then oddLaw (Expr.ssub (B.x.e i 0) (B.q.e i 0)) B.parK (i * order) order
      else .const 0,
    B.q.ok ∧ B.x.ok ∧ B.parK.ok ∧ m ≤ B.q.rows ∧ m ≤ B.x.rows ∧ m * order ≤ B.parK.rows⟩

/-- `d`, `compute_elastic`, src/dynamics.cpp:320-325. -/
def dFun (m order : ℕ) : SX :=
  ⟨m, 1, fun i j => if i < m ∧ j = 0 then fricLaw (Expr.ssub (B.dx.e i 0) (B.dq.e i 0)) B.parD (i * order) order
      else .const 0,
    B.dq.ok ∧ B.dx.ok ∧ B.parD.ok ∧ m ≤ B.dq.rows ∧ m ≤ B.dx.rows ∧ m * order ≤ B.parD.rows⟩

/-- `dm`, `compute_elastic`, src/dynamics.cpp:329-334. -/
def dmFun (m order : ℕ) : SX :=
  ⟨m, 1, fun i j => if i < m ∧ j = 0 then fricLaw (B.dx.e i 0) B.parDm (i * order) order else .const 0,
    B.dx.ok ∧ B.parDm.ok ∧ m ≤ B.dx.rows ∧ m * order ≤ B.parDm.rows⟩

/-- `Mm`, `compute_elastic`, src/dynamics.cpp:338. -/
def MmFun (m : ℕ) : SX := diagPar B.parMm m 1 0

end Base

end

end Thunder
