import Verif.Model.Load
import Verif.Model.Rotate

/-!
# Normal modes and normal-coordinate force constants
(/repo/spectro/src/lib.rs:277-338, 826-847, 985-1009; utils.rs:134-259; utils/linalg.rs; consts.rs)
-/

namespace Verif

variable {α : Type} [Arith α]

/-- `CL`, /repo/spectro/src/consts.rs:26. -/
def CL : α := Arith.lit 2.99792458

/-- `PH`, /repo/spectro/src/consts.rs:35. -/
def PH : α := Arith.lit 6.626176

/-- `AVN`, /repo/spectro/src/consts.rs:62. -/
def AVN : α := Arith.lit 6.022045

/-- `SQLAM`, /repo/spectro/src/consts.rs:38. -/
def SQLAM : α := Arith.lit 0.1722212503791076

/-- `ALAM`, /repo/spectro/src/consts.rs:28. -/
def ALAM : α := Arith.lit 4.0e-2 * (Arith.pi * Arith.pi * CL) / (PH * AVN)

/-- `FUNIT3`, /repo/spectro/src/consts.rs:15-16. -/
def FUNIT3 : α :=
  Arith.lit 4.359813653 / (Arith.lit 0.52917706 * Arith.lit 0.52917706 * Arith.lit 0.52917706)

/-- `FUNIT4`, /repo/spectro/src/consts.rs:18-19. -/
def FUNIT4 : α :=
  Arith.lit 4.359813653 / (Arith.lit 0.52917706 * Arith.lit 0.52917706 * Arith.lit 0.52917706 *
    Arith.lit 0.52917706)

/-- `FACT3`, /repo/spectro/src/consts.rs:40. -/
def FACT3 : α := Arith.lit 1.0e6 / (SQLAM * SQLAM * SQLAM * PH * CL)

/-- `FACT4`, /repo/spectro/src/consts.rs:42. -/
def FACT4 : α := Arith.lit 1.0e6 / (ALAM * ALAM * PH * CL)

/-- `SQRT_AVN`, /repo/spectro/src/consts.rs:67. -/
def SQRT_AVN : α := Arith.lit 2.453985533779692

/-- `WAVE`, /repo/spectro/src/consts.rs:70. -/
def WAVE : α := Arith.lit 1e4 * SQRT_AVN / (Arith.lit 2.0 * Arith.pi * CL)

/-- The index pairs of `for i in 0..n { for j in i..n { .. }}`, /repo/spectro/src/lib.rs:278-280. -/
def upperPairs (n : Nat) : List (Nat × Nat) :=
  (List.range n).flatMap fun i => (List.range' i (n - i)).map fun j => (i, j)

/-- nalgebra's `fill_lower_triangle_with_upper_triangle`, called at /repo/spectro/src/lib.rs:285. -/
def fillLower (m : Mat α) : Mat α := fun i j => if j < i then m j i else m i j

/-- `form_sec`, /repo/spectro/src/lib.rs:277-287. -/
def formSec (n3n : Nat) (fx : Mat α) (sqm : Vec α) : Mat α :=
  fillLower <| (upperPairs n3n).foldl
    (fun fx p => Mat.set fx p.1 p.2 (sqm (p.1 / 3) * fx p.1 p.2 * sqm (p.2 / 3))) fx

/-- `make_lx`, /repo/spectro/src/lib.rs:329-338. -/
def makeLx (n3n : Nat) (sqm : Vec α) (lxm : Mat α) : Mat α :=
  (pairs n3n n3n).foldl (fun lx p => Mat.set lx p.1 p.2 (sqm (p.1 / 3) * lxm p.1 p.2))
    (fun _ _ => Arith.lit 0)

/-- The comparison used by the two `sort_by` calls, /repo/spectro/src/utils/linalg.rs:18-25:
"not greater" in the requested order. The pairs are (eigenvalue, original position). -/
def eigenLe (reverse : Bool) (p q : α × Nat) : Bool :=
  if reverse then !Arith.lt p.1 q.1 else !Arith.lt q.1 p.1

/-- `symm_eigen_decomp`, /repo/spectro/src/utils/linalg.rs:11-35, after the call to nalgebra's
`SymmetricEigen` (whose eigenvalue list `vals` and eigenvector matrix `vecs` are inputs). The stable
slice sort is `mergeSort`. A column index past the end of the eigenvalues (impossible for a square
matrix) reads column 0. NaN makes the comparison inconsistent and is outside the model. -/
def symmEigenDecomp (vals : List α) (vecs : Mat α) (reverse : Bool) : List α × Mat α :=
  let pairs := vals.zipIdx.mergeSort (eigenLe reverse)
  (pairs.map (·.1), fun r i => vecs r ((pairs.map (·.2)).getD i 0))

/-- The closure of `to_wavenumbers`, /repo/spectro/src/utils.rs:137-143. -/
def toWavenumber (f : α) : α :=
  if Arith.lt f (Arith.lit 0.0) then Arith.lit (-1.0) * WAVE * Arith.sqrt (-f)
  else WAVE * Arith.sqrt f

/-- `to_wavenumbers`, /repo/spectro/src/utils.rs:134-145. -/
def toWavenumbers (freqs : List α) : List α := freqs.map toWavenumber

/-- `lx.transpose() * dd * lx` for `n`x`n` matrices, /repo/spectro/src/utils.rs:178, 219, 239. -/
def congruence (n : Nat) (lx dd : Mat α) : Mat α := matMul n (matMul n (transpose lx) dd) lx

/-- One iteration of the first loop of `force3`, /repo/spectro/src/utils.rs:174-180.
`f3x.submatrix((0,0), (n,n-1), k)` is the contiguous storage of plane `k` (crate `tensor`, not in
/repo). It is read by `from_row_slice` and the product is written back from nalgebra's column-major
`as_slice`; whichever of the two storage orders the crate uses, one of these two steps transposes, so
plane `k` becomes the *transpose* of `lxᵀ (FUNIT3 plane) lx`. -/
def force3Plane (n3n : Nat) (lx : Mat α) (f3x : T3 α) (kabc : Nat) : T3 α :=
  let dd : Mat α := fun i j => f3x i j kabc * FUNIT3
  let ee := congruence n3n lx dd
  fun i j k => if i < n3n ∧ j < n3n ∧ k = kabc then ee j i else f3x i j k

/-- The value pushed for `(i, j, k)`, /repo/spectro/src/utils.rs:184-195. -/
def force3Val (n3n : Nat) (f3x : T3 α) (lx : Mat α) (freq : Vec α) (i j k : Nat) : α :=
  let wijk := freq i * freq j * freq k
  let fact := FACT3 / Arith.sqrt wijk
  let val := sumTo n3n fun l => f3x i j l * lx l k
  val * fact

/-- `force3`, /repo/spectro/src/utils.rs:165-200. The capacity computation `nvib - 1`
(line 182, underflow for `nvib = 0`) is not modelled. -/
def force3 (n3n : Nat) (f3x : T3 α) (lx : Mat α) (nvib : Nat) (freq : Vec α) : F3qcm α :=
  let f3x := (List.range n3n).foldl (force3Plane n3n lx) f3x
  (nest3 nvib).map fun p => force3Val n3n f3x lx freq p.1 p.2.1 p.2.2

/-- One iteration of the first loop nest of `force4`, /repo/spectro/src/utils.rs:213-229, with the same
transposition as in `force3Plane` (the source comment at 220-221 mentions it). -/
def force4Plane (n3n : Nat) (lx : Mat α) (f4x : T4 α) (f4q : T4 α) (p : Nat × Nat) : T4 α :=
  let dd : Mat α := fun i j => f4x i j p.1 p.2 * FUNIT4
  let ee := congruence n3n lx dd
  fun i j k l => if i < n3n ∧ j < n3n ∧ k = p.1 ∧ l = p.2 then ee j i else f4q i j k l

/-- The index quadruples `(i, j, k, l)` of the second loop nest of `force4`, in order,
/repo/spectro/src/utils.rs:234-245. -/
def force4Order (nvib : Nat) : List (Nat × Nat × Nat × Nat) :=
  (List.range nvib).flatMap fun i => (List.range (i + 1)).flatMap fun j =>
    (List.range nvib).flatMap fun k => (List.range (k + 1)).map fun l => (i, j, k, l)

/-- The value written for `(i, j, k, l)`, /repo/spectro/src/utils.rs:238-253. The source computes the
matrix `ee` once per `(i, j)`; here it is recomputed. -/
def force4Val (n3n : Nat) (f4q : T4 α) (lx : Mat α) (harms : Vec α) (i j k l : Nat) : α :=
  let dd : Mat α := fun kabc labc => f4q i j kabc labc
  let ee := congruence n3n lx dd
  let wijkl := harms i * harms j * harms k * harms l
  let sqws := Arith.sqrt wijkl
  let fact := FACT4 / sqws
  ee k l * fact

/-- The second loop nest of `force4` run over the index list `order`,
/repo/spectro/src/utils.rs:234-257. -/
def force4Fill (n3n : Nat) (f4q : T4 α) (lx : Mat α) (harms : Vec α)
    (order : List (Nat × Nat × Nat × Nat)) (f4qcm : F4qcm α) : Option (F4qcm α) :=
  order.foldlM (fun (t : F4qcm α) p => F4qcm.put t p.2.2.1 p.2.2.2 p.1 p.2.1
    (force4Val n3n f4q lx harms p.1 p.2.1 p.2.2.1 p.2.2.2)) f4qcm

/-- The tensor after the first loop nest of `force4`, /repo/spectro/src/utils.rs:210-230. -/
def force4Half (n3n : Nat) (f4x : T4 α) (lx : Mat α) : T4 α :=
  (pairs n3n n3n).foldl (force4Plane n3n lx f4x) (fun _ _ _ _ => Arith.lit 0)

/-- `force4`, /repo/spectro/src/utils.rs:202-259. `nvib - 1` underflows for `nvib = 0`. -/
def force4 (n3n : Nat) (f4x : T4 α) (lx : Mat α) (nvib : Nat) (harms : Vec α) :
    Option (F4qcm α) :=
  if nvib = 0 then none else
  let n := nvib - 1
  force4Fill n3n (force4Half n3n f4x lx) lx harms (force4Order nvib)
    (List.replicate (find4 n n n n + 1) (Arith.lit 0.0))

/-- `make_zmat`, /repo/spectro/src/lib.rs:985-1009. Every entry with `k, l < nvib` is assigned once;
the assignments are written as a function. The third index is the axis (0, 1, 2). -/
def makeZmat (nvib natom : Nat) (lxm : Mat α) : T3 α := fun k l x =>
  if k < nvib ∧ l < nvib then
    let valux := sumTo natom fun i =>
      lxm (3 * i + 1) k * lxm (3 * i + 2) l - lxm (3 * i + 2) k * lxm (3 * i + 1) l
    let valuy := sumTo natom fun i =>
      lxm (3 * i + 2) k * lxm (3 * i) l - lxm (3 * i) k * lxm (3 * i + 2) l
    let valuz := sumTo natom fun i =>
      lxm (3 * i) k * lxm (3 * i + 1) l - lxm (3 * i + 1) k * lxm (3 * i) l
    if x = 0 then valux else if x = 1 then valuy else if x = 2 then valuz else Arith.lit 0
  else Arith.lit 0

/-- The Wilson A matrix returned by `zeta`, /repo/spectro/src/lib.rs:830-846, as a function of the mode
`k` and the packed component. `pos i` are the coordinates `(x, y, z)` of atom `i`, `w i` its weight. The
accumulations `+=`/`-=` over the atoms are sums in the same order (`-=` as a running difference). -/
def wilsonA (nvib natom : Nat) (pos : Nat → Nat → α) (lxm : Mat α) (w : Vec α) : Mat α :=
  fun k c =>
    if k < nvib then
      let acc := fun (f : Nat → α) => sumTo natom f
      let dec := fun (f : Nat → α) =>
        (List.range natom).foldl (fun s i => s - f i) (Arith.lit 0)
      let r := fun i => Arith.sqrt (w i)
      let val :=
        if c = 0 then acc fun i =>
          r i * (pos i 1 * lxm (3 * i + 1) k + pos i 2 * lxm (3 * i + 2) k)
        else if c = 2 then acc fun i =>
          r i * (pos i 0 * lxm (3 * i) k + pos i 2 * lxm (3 * i + 2) k)
        else if c = 5 then acc fun i =>
          r i * (pos i 0 * lxm (3 * i) k + pos i 1 * lxm (3 * i + 1) k)
        else if c = 1 then dec fun i => r i * pos i 0 * lxm (3 * i + 1) k
        else if c = 3 then dec fun i => r i * pos i 0 * lxm (3 * i + 2) k
        else if c = 4 then dec fun i => r i * pos i 1 * lxm (3 * i + 2) k
        else Arith.lit 0
      Arith.lit 2.0 * val
    else Arith.lit 0

end Verif
