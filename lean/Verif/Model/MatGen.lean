import Verif.Model.Mat

/-! Model of the generic matrix routines of `src/Math/Matrix.inl`, which the code instantiates at
3x3 and 4x4; here at any size `n`. Loops are folds over the row or column indices in increasing
order, exactly as the `for` loops run. -/

namespace MGL.MatGen
variable {α : Type*} {n : ℕ}

/-- src/Math/float3x3.cpp:572-580, float4x4.cpp:1043-1058 `SwapRows`. -/
def swapRows (m : Matrix (Fin n) (Fin n) α) (a b : Fin n) : Matrix (Fin n) (Fin n) α :=
  fun i j => if i = a then m b j else if i = b then m a j else m i j

section
variable [Field α]

/-- src/Math/float3x3.cpp:447-455, float4x4.cpp:739-750 `ScaleRow`. -/
def scaleRow (m : Matrix (Fin n) (Fin n) α) (r : Fin n) (s : α) : Matrix (Fin n) (Fin n) α :=
  fun i j => if i = r then m i j * s else m i j

/-- `m.SetRow(i, m.Row(i) - m.Row(c) * f)` as in src/Math/Matrix.inl:805-806. -/
def subRow (m : Matrix (Fin n) (Fin n) α) (i c : Fin n) (f : α) : Matrix (Fin n) (Fin n) α :=
  fun a b => if a = i then m i b - m c b * f else m a b

/-- src/Math/Matrix.inl:803-812: one `i` of the two "add rows" loops; the state is `(inversed, mat)`. -/
def elim1 (c : Fin n) (s : Matrix (Fin n) (Fin n) α × Matrix (Fin n) (Fin n) α) (i : Fin n) :
    Matrix (Fin n) (Fin n) α × Matrix (Fin n) (Fin n) α :=
  (subRow s.1 i c (s.2 i c), subRow s.2 i c (s.2 i c))

variable [LinearOrder α]

/-- src/Math/Matrix.inl:772-782: search of the row with the greatest absolute value, from `column`
down; the state is `(greatest, greatestVal)`. -/
def pivotSearch (m : Matrix (Fin n) (Fin n) α) (c : Fin n) : Fin n × α :=
  ((List.finRange n).filter (fun i => c < i)).foldl
    (fun g i => let val := absF (m i c); if val > g.2 then (i, val) else g) (c, absF (m c c))

/-- src/Math/Matrix.inl:769-813: the body of the loop over `column`; `none` is the early exit. -/
def invStep (eps : α) (s : Matrix (Fin n) (Fin n) α × Matrix (Fin n) (Fin n) α) (c : Fin n) :
    Option (Matrix (Fin n) (Fin n) α × Matrix (Fin n) (Fin n) α) :=
  let g := pivotSearch s.2 c
  if g.2 < eps then none
  else
    let s := if g.1 ≠ c then (swapRows s.1 g.1 c, swapRows s.2 g.1 c) else s
    let scale := 1 / s.2 c c
    let s := (scaleRow s.1 c scale, scaleRow s.2 c scale)
    let s := ((List.finRange n).filter (fun i => i < c)).foldl (elim1 c) s
    some (((List.finRange n).filter (fun i => c < i)).foldl (elim1 c) s)

/-- src/Math/Matrix.inl:768-816, the loop over the columns of `InverseMatrix`; the result is the final `mat` and the returned flag. -/
def invLoop (eps : α) : List (Fin n) → Matrix (Fin n) (Fin n) α × Matrix (Fin n) (Fin n) α →
    Matrix (Fin n) (Fin n) α × Bool
  | [], s => (s.1, true)
  | c :: cs, s =>
    match invStep eps s c with
    | none => (s.1, false)
    | some s' => invLoop eps cs s'

/-- src/Math/Matrix.inl:763-817 `InverseMatrix`: the new contents of the matrix and the flag. -/
def inverseMatrix (m : Matrix (Fin n) (Fin n) α) (eps : α) : Matrix (Fin n) (Fin n) α × Bool :=
  invLoop eps (List.finRange n) (fun i j => if i = j then 1 else 0, m)

/-- src/Math/Matrix.inl:830-835: row `i` of `upper`. -/
def luUpper (mat lower : Matrix (Fin n) (Fin n) α) (i : Fin n) (upper : Matrix (Fin n) (Fin n) α) :
    Matrix (Fin n) (Fin n) α :=
  ((List.finRange n).filter (fun col => i ≤ col)).foldl
    (fun u col => Mat.setAt u i col
      (((List.finRange n).filter (fun k => k < i)).foldl (fun acc k => acc - lower i k * u k col) (mat i col)))
    upper

/-- src/Math/Matrix.inl:836-844: column `i` of `lower`; `none` is the early exit. -/
def luLower (mat upper : Matrix (Fin n) (Fin n) α) (i : Fin n) (lower : Matrix (Fin n) (Fin n) α) :
    Option (Matrix (Fin n) (Fin n) α) :=
  ((List.finRange n).filter (fun row => i < row)).foldlM
    (fun l row =>
      let x := ((List.finRange n).filter (fun k => k < i)).foldl (fun acc k => acc - l row k * upper k i) (mat row i)
      if equalAbs (upper i i) 0 then none else some (Mat.setAt l row i (x / upper i i)))
    lower

/-- src/Math/Matrix.inl:823-847 `LUDecomposeMatrix`; state `(lower, upper)`, `none` when it returns
false (the outputs are then unspecified). -/
def luDecompose (mat : Matrix (Fin n) (Fin n) α) :
    Option (Matrix (Fin n) (Fin n) α × Matrix (Fin n) (Fin n) α) :=
  (List.finRange n).foldlM
    (fun s i =>
      let u := luUpper mat s.1 i s.2
      (luLower mat u i s.1).map (fun l => (l, u)))
    ((fun i j => if i = j then 1 else 0), fun _ _ => 0)

/-- src/Math/float4x4.cpp:1520-1523: search of the pivot row, from `rowIndex` down. -/
def pivotRow (m : Matrix (Fin n) (Fin n) α) (r : Fin n) (col : Fin n) : Fin n :=
  ((List.finRange n).filter (fun i => r ≤ i)).foldl
    (fun g i => if absF (m i col) > absF (m g col) then i else g) r

/-- src/Math/float4x4.cpp:1516-1538: the body of the loop over `col`. State: matrix and `rowIndex`.
When `rowIndex` has reached `Rows` the code reads `At(Rows, col)`, outside the matrix; that can not
happen, because at most one row is used up per column, and is modelled as leaving the state alone.
`eps` is the tolerance of `EqualAbs`, 1e-4 in the code. -/
def pivotStep (eps : α) (s : Matrix (Fin n) (Fin n) α × ℕ) (col : Fin n) : Matrix (Fin n) (Fin n) α × ℕ :=
  if h : s.2 < n then
    let r : Fin n := ⟨s.2, h⟩
    let g := pivotRow s.1 r col
    if equalAbs (s.1 g col) 0 eps then s
    else
      let m := if r ≠ g then swapRows s.1 r g else s.1
      let m := scaleRow m r (1 / m r col)
      (((List.finRange n).filter (fun i => i ≠ r)).foldl (fun m i => subRow m i r (m i col)) m, s.2 + 1)
  else s

/-- src/Math/float4x4.cpp:1512-1539 `Pivot`. -/
def pivot (m : Matrix (Fin n) (Fin n) α) (eps : α := 1 / 10000) : Matrix (Fin n) (Fin n) α :=
  ((List.finRange n).foldl (pivotStep eps) (m, 0)).1

/-- src/Math/Matrix.inl:853-876 `CholeskyDecomposeMatrix`: row `i`, columns `j < i`. -/
def choleskyRow (mat : Matrix (Fin n) (Fin n) α) (i : Fin n) (lower : Matrix (Fin n) (Fin n) α) :
    Option (Matrix (Fin n) (Fin n) α) :=
  ((List.finRange n).filter (fun j => j < i)).foldlM
    (fun l j =>
      let x := ((List.finRange n).filter (fun k => k < j)).foldl (fun acc k => acc - l i k * l j k) (mat i j)
      if equalAbs (l j j) 0 then none else some (Mat.setAt l i j (x / l j j)))
    lower

/-- src/Math/Matrix.inl:853-876 `CholeskyDecomposeMatrix`; `none` when it returns false. The square
root is a parameter (`Sqrt` of the C library). -/
def cholesky (sqrt : α → α) (mat : Matrix (Fin n) (Fin n) α) : Option (Matrix (Fin n) (Fin n) α) :=
  (List.finRange n).foldlM
    (fun l i => (choleskyRow mat i l).bind (fun l =>
      let l := Mat.setAt l i i (mat i i)
      if l i i ≠ 0 then none
      else
        let x := ((List.finRange n).filter (fun k => k < i)).foldl (fun acc k => acc - l i k * l i k) (l i i)
        some (Mat.setAt l i i (sqrt x))))
    (fun _ _ => 0)

end

end MGL.MatGen

namespace MGL
variable {α : Type*} [Field α] [LinearOrder α]

/-- src/Math/float3x3.cpp:774-787 `Inverse`: works on a copy, the matrix is kept on failure. -/
def Mat3.inverse (m : Mat3 α) (eps : α := 1 / 1000000) : Mat3 α × Bool :=
  let i := MatGen.inverseMatrix m eps
  if i.2 then (i.1, true) else (m, false)

/-- src/Math/float4x4.cpp:1332-1341 `Inverse`, in place. -/
def Mat4.inverse (m : Mat4 α) (eps : α := 1 / 1000000) : Mat4 α × Bool := MatGen.inverseMatrix m eps

/-- src/Math/float3x4.cpp:872-884 `Inverse`. -/
def Mat34.inverse (m : Mat34 α) (eps : α := 1 / 1000000) : Mat34 α × Bool :=
  let t := Mat4.inverse (Mat4.ofMat34 m) eps
  (Mat4.float3x4Part t.1, t.2)

end MGL
