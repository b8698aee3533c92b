import Verif.Model.Dynamics

/-!
# Symbolic regressors (`src/thunder/src/regressors.cpp`)
-/

open scoped Classical

namespace Thunder

noncomputable section

/-- `createQ()[l]`, src/regressors.cpp:11-29. -/
def matQ : ℕ → SX
  | 0 => mat33 (.const 0) (.const 0) (.const 0) (.const 0) (.const 0) (.const (-1)) (.const 0) (.const 1) (.const 0)
  | 1 => mat33 (.const 0) (.const 0) (.const 1) (.const 0) (.const 0) (.const 0) (.const (-1)) (.const 0) (.const 0)
  | _ => mat33 (.const 0) (.const (-1)) (.const 0) (.const 1) (.const 0) (.const 0) (.const 0) (.const 0) (.const 0)

/-- `createE()[l]`, src/regressors.cpp:31-54. -/
def matE : ℕ → SX
  | 0 => mat33 (.const 1) (.const 0) (.const 0) (.const 0) (.const 0) (.const 0) (.const 0) (.const 0) (.const 0)
  | 1 => mat33 (.const 0) (.const 1) (.const 0) (.const 1) (.const 0) (.const 0) (.const 0) (.const 0) (.const 0)
  | 2 => mat33 (.const 0) (.const 0) (.const 1) (.const 0) (.const 0) (.const 0) (.const 1) (.const 0) (.const 0)
  | 3 => mat33 (.const 0) (.const 0) (.const 0) (.const 0) (.const 1) (.const 0) (.const 0) (.const 0) (.const 0)
  | 4 => mat33 (.const 0) (.const 0) (.const 0) (.const 0) (.const 0) (.const 1) (.const 0) (.const 1) (.const 0)
  | _ => mat33 (.const 0) (.const 0) (.const 0) (.const 0) (.const 0) (.const 0) (.const 0) (.const 0) (.const 1)

/-- Matrix whose `l`-th column (`l < k`) is the column `c l`. -/
def ofCols (n k : ℕ) (c : ℕ → SX) : SX :=
  ⟨n, k, fun a l => if l < k then (c l).e a 0 else .const 0, ∀ l < k, (c l).ok ∧ (c l).rows = n⟩

namespace Base

variable [Fl] (B : Base)

/-- `Jvi = Ji(sel_v, allCols)`, src/regressors.cpp:108 (`Ji` is the registered `J_{i+1}`). -/
def Yv (i : ℕ) : SX := SX.block (B.J i) 0 3 0 B.n
/-- `Jwi = Ji(sel_w, allCols)`, src/regressors.cpp:109. -/
def Yw (i : ℕ) : SX := SX.block (B.J i) 3 3 0 B.n

/-- `stdCmatrix(A, q, dq, dq_sel_)`. -/
def cor (A : SX) : SX := stdCmatrix A B.q B.dq (dqSelect B.dq)

/-- `M0_i`, src/regressors.cpp:120. -/
def M0 (i : ℕ) : SX := SX.mtimes (SX.transp (B.Yv i)) (B.Yv i)
/-- `M1l_i`, src/regressors.cpp:137-138. -/
def M1 (i l : ℕ) : SX :=
  SX.sub
    (SX.mtimes (SX.mtimes (SX.mtimes (SX.mtimes (SX.transp (B.Yw i)) (B.R0 (i + 1))) (matQ l)) (SX.transp (B.R0 (i + 1)))) (B.Yv i))
    (SX.mtimes (SX.mtimes (SX.mtimes (SX.mtimes (SX.transp (B.Yv i)) (B.R0 (i + 1))) (matQ l)) (SX.transp (B.R0 (i + 1)))) (B.Yw i))
/-- `M2l_i`, src/regressors.cpp:156. -/
def M2 (i l : ℕ) : SX :=
  SX.mtimes (SX.mtimes (SX.mtimes (SX.mtimes (SX.transp (B.Yw i)) (B.R0 (i + 1))) (matE l)) (SX.transp (B.R0 (i + 1)))) (B.Yw i)

/-- `dX0r_i`, `dX1r_i`, `dX2r_i`: src/regressors.cpp:123, 141, 159. -/
def dX0 (i : ℕ) : SX := SX.mtimes (B.M0 i) B.ddqr
/-- `dX1r_i`: src/regressors.cpp:141. -/
def dX1 (i : ℕ) : SX := ofCols B.n 3 fun l => SX.mtimes (B.M1 i l) B.ddqr
/-- `dX2r_i`: src/regressors.cpp:159. -/
def dX2 (i : ℕ) : SX := ofCols B.n 6 fun l => SX.mtimes (B.M2 i l) B.ddqr
/-- `W0r_i`, `W1r_i`, `W2r_i`: src/regressors.cpp:124, 142, 160. -/
def W0 (i : ℕ) : SX := SX.neg (SX.mtimes (B.cor (B.M0 i)) B.dqr)
/-- `W1r_i`: src/regressors.cpp:142. -/
def W1 (i : ℕ) : SX := ofCols B.n 3 fun l => SX.neg (SX.mtimes (B.cor (B.M1 i l)) B.dqr)
/-- `W2r_i`: src/regressors.cpp:160. -/
def W2 (i : ℕ) : SX := ofCols B.n 6 fun l => SX.neg (SX.mtimes (B.cor (B.M2 i l)) B.dqr)
/-- `Z0r_i`, src/regressors.cpp:125. -/
def Z0 (i : ℕ) : SX := SX.neg (SX.mtimes (SX.transp (B.Yv i)) B.g)
/-- `Z1r_i`, src/regressors.cpp:144. -/
def Z1 (i : ℕ) : SX :=
  SX.neg (SX.transp (SX.jacobian (SX.mtimes (SX.transp (B.R0 (i + 1))) B.g) B.q))

/-- `Y0r_i`, `Y1r_i`, `Y2r_i`: src/regressors.cpp:127, 146, 163. -/
def Y0 (i : ℕ) : SX := SX.add (SX.sub (B.dX0 i) (B.W0 i)) (B.Z0 i)
/-- `Y1r_i`: src/regressors.cpp:146. -/
def Y1 (i : ℕ) : SX := SX.add (SX.sub (B.dX1 i) (B.W1 i)) (B.Z1 i)
/-- `Y2r_i`: src/regressors.cpp:163. -/
def Y2 (i : ℕ) : SX := SX.sub (B.dX2 i) (B.W2 i)

/-- `Yr_i`, `reg_M_i`, `reg_C_i`, `reg_G_i`: src/regressors.cpp:166-172. -/
def Yri (i : ℕ) : SX := SX.hcat (SX.hcat (B.Y0 i) (B.Y1 i)) (B.Y2 i)
/-- `reg_M_i`: src/regressors.cpp:166-172. -/
def regMi (i : ℕ) : SX := SX.hcat (SX.hcat (B.dX0 i) (B.dX1 i)) (B.dX2 i)
/-- `reg_C_i`: src/regressors.cpp:166-172. -/
def regCi (i : ℕ) : SX := SX.hcat (SX.hcat (SX.neg (B.W0 i)) (SX.neg (B.W1 i))) (SX.neg (B.W2 i))
/-- `reg_G_i`: src/regressors.cpp:166-172. -/
def regGi (i : ℕ) : SX := SX.hcat (SX.hcat (B.Z0 i) (B.Z1 i)) (SX.zeros B.n 6)

/-- `Yr(allRows, selCols) = Yr_i` for every link, src/regressors.cpp:175-179. -/
def stack (f : ℕ → SX) : SX :=
  ⟨B.n, nPar * B.n, fun a c => if c < nPar * B.n then (f (c / nPar)).e a (c % nPar) else .const 0,
    ∀ i < B.n, (f i).ok ∧ (f i).rows = B.n ∧ (f i).cols = nPar⟩

/-- `Yr`, src/regressors.cpp:175-179. -/
def Yr : SX := B.stack B.Yri
/-- `reg_M`, src/regressors.cpp:175-179. -/
def regM : SX := B.stack B.regMi
/-- `reg_C`, src/regressors.cpp:175-179. -/
def regC : SX := B.stack B.regCi
/-- `reg_G`, src/regressors.cpp:175-179. -/
def regG : SX := B.stack B.regGi

/-- The symbolic entries of a parameter vector, in order (`par_symb.push_back(par(i))` when `symb[i]`),
e.g. src/regressors.cpp:210-216. -/
def symbPar (p : SX) (flags : List ℤ) : List Expr :=
  ((List.range p.rows).filter fun i => flags.getD i 0 ≠ 0).map fun i => p.e i 0

/-- `reg_Dl = jacobian(dl, par)`, src/regressors.cpp:219. -/
def regDl (order : ℕ) (flags : List ℤ) : SX := SX.jacobian (B.dlFun order) (SX.ofList (symbPar B.dl flags))
/-- `reg_K`, src/regressors.cpp:289. -/
def regK (m order : ℕ) (flags : List ℤ) : SX := SX.jacobian (B.kFun m order) (SX.ofList (symbPar B.parK flags))
/-- `reg_D`, src/regressors.cpp:293. -/
def regD (m order : ℕ) (flags : List ℤ) : SX := SX.jacobian (B.dFun m order) (SX.ofList (symbPar B.parD flags))
/-- `reg_Dm`, src/regressors.cpp:297. -/
def regDm (m order : ℕ) (flags : List ℤ) : SX := SX.jacobian (B.dmFun m order) (SX.ofList (symbPar B.parDm flags))
/-- `reg_Mm = jacobian(Mm*ddx, par)`, src/regressors.cpp:301. -/
def regMm (m : ℕ) (flags : List ℤ) : SX :=
  SX.jacobian (SX.mtimes (B.MmFun m) B.ddx) (SX.ofList (symbPar B.parMm flags))

/-- The symbolic kinematic parameters, in the order DH, world2L0, Ln2EE: src/regressors.cpp:339-356. -/
def kinPar (fdh fw fe : List ℤ) : SX :=
  SX.ofList (symbPar B.dh fdh ++ symbPar B.w2l fw ++ symbPar B.ee fe)
/-- `reg_Jdq`, src/regressors.cpp:361-363. -/
def regJdq (fdh fw fe : List ℤ) : SX := SX.jacobian (SX.mtimes B.Jee B.dq) (B.kinPar fdh fw fe)
/-- `reg_JTw`, src/regressors.cpp:367-369. -/
def regJTw (fdh fw fe : List ℤ) : SX := SX.jacobian (SX.mtimes (SX.transp B.Jee) B.w) (B.kinPar fdh fw fe)

end Base

end

end Thunder
