import Verif.Model.Expr
import Verif.Spec.Array2D

/-
What views and expressions mean, in terms of lists and matrices of element values.  An element
value is a `Res`: computing an element can fail by itself (an integer division by zero, say), which
has nothing to do with the structure of the expression.

Nothing here refers to the accessor objects of the model, except `Den`, which says that an object
has a given meaning.
-/

namespace Spp.Spec

/-- The value of an expression: a list, or a matrix. -/
def Sem (β : Type) : Dim → Type
  | .one => List (Res β)
  | .two => Mat (Res β)

/-- The element numbers selected by a slice request on an extent of `n` elements.  For `seq` it is
the number of points of the inclusive range (see `C15_seq_selects`). -/
def selection (n : Int) : SliceReq → List Int
  | .seqN start size stride => progression start stride size.toNat
  | .seq first last stride => progression first stride ((last - first).tdiv stride + 1).toNat
  | r => selected n r

/-- Element `i`, nothing outside the list. -/
def pick {β : Type} (l : List (Res β)) (i : Int) : Res β :=
  if 0 ≤ i then l.getD i.toNat .ub else .ub

namespace Mat

/-- Element `(i, j)`, nothing outside the matrix. -/
def pick {β : Type} (M : Mat (Res β)) (i j : Int) : Res β :=
  if 0 ≤ i ∧ i < M.m ∧ 0 ≤ j ∧ j < M.n then M.el i.toNat j.toNat else .ub

/-- Row `i` as a list. -/
def row {β : Type} (M : Mat β) (i : Nat) : List β := (List.range M.n).map (fun j => M.el i j)

/-- Column `j` as a list. -/
def col {β : Type} (M : Mat β) (j : Nat) : List β := (List.range M.m).map (fun i => M.el i j)

/-- All elements, row by row. -/
def flat {β : Type} (M : Mat β) : List β := (List.range M.m).flatMap (fun i => M.row i)

/-- The diagonal that starts in column `k` of row 0, or in row `-k` of column 0. -/
def diagonal {β : Type} (M : Mat β) (k : Int) : List β :=
  if 0 ≤ k then (List.range (min M.m (M.n - k.toNat))).map (fun i => M.el i (i + k.toNat))
  else (List.range (min (M.m - (-k).toNat) M.n)).map (fun j => M.el (j + (-k).toNat) j)

/-- The `p` by `q` block whose top left corner is `(r, c)`; 0x0 when it has no elements. -/
def sub {β : Type} (M : Mat β) (r c p q : Nat) : Mat β :=
  if p = 0 ∨ q = 0 then ⟨0, 0, M.el⟩ else ⟨p, q, fun i j => M.el (r + i) (c + j)⟩

/-- The elements at the crossings of the listed rows and columns; 0x0 when there are none. -/
def cross {β : Type} (M : Mat (Res β)) (rs cs : List Int) : Mat (Res β) :=
  if rs = [] ∨ cs = [] then ⟨0, 0, M.el⟩
  else ⟨rs.length, cs.length, fun i j => M.pick (rs.getD i 0) (cs.getD j 0)⟩

/-- A list laid out row by row in an `m` by `n` matrix; 0x0 when it has no elements. -/
def laid {β : Type} (l : List (Res β)) (m n : Nat) : Mat (Res β) :=
  if m = 0 ∨ n = 0 then ⟨0, 0, fun _ _ => .ub⟩ else ⟨m, n, fun i j => l.getD (i * n + j) .ub⟩

/-- Side by side; an empty matrix is neutral. -/
def beside {β : Type} (M N : Mat β) : Mat β :=
  ⟨if M.m = 0 then N.m else M.m, M.n + N.n, fun i j => if j < M.n then M.el i j else N.el i (j - M.n)⟩

/-- One above the other; an empty matrix is neutral. -/
def above {β : Type} (M N : Mat β) : Mat β :=
  ⟨M.m + N.m, if M.n = 0 then N.n else M.n, fun i j => if i < M.m then M.el i j else N.el (i - M.m) j⟩

/-- Transposed. -/
def transposed {β : Type} (M : Mat β) : Mat β := ⟨M.n, M.m, fun i j => M.el j i⟩

end Mat

namespace Sem

/-- The elements in linear (row-major) order. -/
def flat {β : Type} : {d : Dim} → Sem β d → List (Res β)
  | .one, l => l
  | .two, M => Mat.flat M

/-- Apply an operation to every element. -/
def map {β γ : Type} (f : β → Res γ) : {d : Dim} → Sem β d → Sem γ d
  | .one, l => List.map (fun x => x >>= f) l
  | .two, M => (⟨M.m, M.n, fun i j => M.el i j >>= f⟩ : Mat (Res γ))

/-- Apply a binary operation to corresponding elements. -/
def zip {β : Type} (f : β → β → Res β) : {d : Dim} → Sem β d → Sem β d → Sem β d
  | .one, l1, l2 => List.zipWith (fun x y => do let u ← x; let v ← y; f u v) l1 l2
  | .two, M, N => (⟨M.m, M.n, fun i j => do let u ← M.el i j; let v ← N.el i j; f u v⟩ :
      Mat (Res β))

/-- Number of rows and columns; a list has one column. -/
def dims {β : Type} : {d : Dim} → Sem β d → Nat × Nat
  | .one, l => (List.length l, 1)
  | .two, M => (M.m, M.n)

end Sem

/-- The elements that a view of `x` refers to. -/
def _root_.Spp.View.sel {β : Type} : {d d' : Dim} → View d d' → Sem β d → Sem β d'
  | _, _, .slice r, l => (selection (List.length l) r).map (pick l)
  | _, _, .slice2 r1 r2, M => Mat.cross M (selection M.m r1) (selection M.n r2)
  | _, _, .rows r, M => Mat.cross M (selection M.m r) (upto M.n)
  | _, _, .cols r, M => Mat.cross M (upto M.m) (selection M.n r)
  | _, _, .row p, M => Mat.row M (target M.m p).toNat
  | _, _, .col p, M => Mat.col M (target M.n p).toNat
  | _, _, .diag, M => Mat.diagonal M 0
  | _, _, .diagK k, M => Mat.diagonal M k
  | _, _, .block i1 j1 i2 j2, M =>
      let r1 := target M.m i1; let c1 := target M.n j1
      Mat.sub M r1.toNat c1.toNat (target M.m i2 - r1 + 1).toNat (target M.n j2 - c1 + 1).toNat
  | _, _, .blockN i1 j1 m n, M =>
      Mat.sub M (target M.m i1).toNat (target M.n j1).toNat m.toNat n.toNat
  | _, _, .view1D, M => Mat.flat M
  | _, _, .view2D _ m n, x => Mat.laid x.flat m.toNat n.toNat

/-- The places an assignable object refers to. -/
def _root_.Spp.Lv.cells {α : Type} (s : Store α) : {d : Dim} → Lv d → Sem Loc d
  | _, .arr1 id => (List.range (s.a1 id).length).map (fun k => Res.ok (Loc.one id k))
  | _, .arr2 id => (⟨(s.a2 id).rows.toNat, (s.a2 id).cols.toNat,
      fun i j => .ok (.two id (i * (s.a2 id).cols.toNat + j))⟩ : Mat (Res Loc))
  | _, .view v l => v.sel (l.cells s)

/-- Inner product, left to right. -/
def inner {α : Type} (ar : Arith α) (xs ys : List (Res α)) : Res α :=
  (List.zip xs ys).foldl (fun acc p => do
    let a ← acc
    let u ← p.1
    let v ← p.2
    let q ← ar.mul u v
    ar.add a q) (.ok ar.zero)

/-- `start + incr * i` for `i = 0, 1, ..., n-1`. -/
def arithmetic {α : Type} (ar : Arith α) (n : Nat) (start incr : α) : List (Res α) :=
  (List.range n).map (fun i : Nat => do
    let c ← ar.ofIndex i
    let p ← ar.mul incr c
    ar.add start p)

/-- The value of an expression when the arrays hold `s`. -/
def _root_.Spp.Tm.meaning {α : Type} (s : Store α) : {d : Dim} → Tm α d → Sem α d
  | _, .lv l => (l.cells s).map s.read
  | _, .view v t => v.sel (t.meaning s)
  | _, .unary f t => (t.meaning s).map f
  | _, .binary f t1 t2 => Sem.zip f (t1.meaning s) (t2.meaning s)
  | _, .scalarL f x t => (t.meaning s).map (fun y => f x y)
  | _, .scalarR f t x => (t.meaning s).map (fun y => f y x)
  | _, .sequence ar n start incr => arithmetic ar n.toNat start incr
  | _, .linspace ar n start stop => (List.range n.toNat).map (fun i : Nat => do
      let diff ← ar.sub stop start
      let m ← ar.ofIndex (n - 1)
      let incr ← ar.div diff m
      let c ← ar.ofIndex i
      let p ← ar.mul incr c
      ar.add start p)
  | _, .eUnit ar k n => (List.range n.toNat).map
      (fun i : Nat => Res.ok (if (i : Int) = k then ar.one else ar.zero))
  | _, .const1D n x => List.replicate n.toNat (Res.ok x)
  | _, .const2D m n x => (⟨m.toNat, n.toNat, fun _ _ => .ok x⟩ : Mat (Res α))
  | _, .identity ar n => (⟨n.toNat, n.toNat,
      fun i j => .ok (if i = j then ar.one else ar.zero)⟩ : Mat (Res α))
  | _, .merge t1 t2 => List.append (t1.meaning s) (t2.meaning s)
  | _, .append t x => List.append (t.meaning s) [Res.ok x]
  | _, .prepend x t => List.cons (Res.ok x) (t.meaning s)
  | _, .exclude t pos count => removed (t.meaning s) pos.toNat count.toNat
  -- what the code does: the last element is dropped, whatever `k`
  | _, .excludeLast t _ => List.dropLast (t.meaning s)
  | _, .reduce true g t => (List.range (Mat.m (t.meaning s))).map
      (fun i => g (Mat.row (t.meaning s) i))
  | _, .reduce false g t => (List.range (Mat.n (t.meaning s))).map
      (fun j => g (Mat.col (t.meaning s) j))
  | _, .matvec ar t x => (List.range (Mat.m (t.meaning s))).map
      (fun i => inner ar (Mat.row (t.meaning s) i) (x.meaning s))
  | _, .bcast true t =>
      let l : List (Res α) := t.meaning s
      (⟨l.length, l.length, fun _ j => l.getD j .ub⟩ : Mat (Res α))
  | _, .bcast false t =>
      let l : List (Res α) := t.meaning s
      (⟨l.length, l.length, fun i _ => l.getD i .ub⟩ : Mat (Res α))
  | _, .tensor ar t1 t2 =>
      let l1 : List (Res α) := t1.meaning s
      let l2 : List (Res α) := t2.meaning s
      (⟨l1.length, l2.length, fun i j => do
        let x ← l1.getD i .ub
        let y ← l2.getD j .ub
        ar.mul x y⟩ : Mat (Res α))
  | _, .transpose t => Mat.transposed (t.meaning s)
  | _, .mergeH t1 t2 => Mat.beside (t1.meaning s) (t2.meaning s)
  | _, .mergeV t1 t2 => Mat.above (t1.meaning s) (t2.meaning s)

/-- The object is small enough for its size to be an `index_t` (and the size plus one as well), and
has no rows exactly when it has no columns. -/
def Small {β : Type} : {d : Dim} → Sem β d → Prop
  | .one, l => (List.length l : Int) < 2 ^ 63 - 1
  | .two, M => ((M.m * M.n : Nat) : Int) < 2 ^ 63 - 1 ∧ (M.m = 0 ↔ M.n = 0)

/-- The accessor object, used while the arrays hold `s`, is the list or matrix `x`: it has that
size, and every access inside it yields that element - in particular nothing outside the arrays is
touched, because such an access would be undefined.  For matrices linear access agrees with
two-index access in row-major order. -/
def Den {σ β : Type} : (d : Dim) → Acc σ β → σ → Sem β d → Prop
  | .one, a, s, l =>
      a.rows s = (List.length l : Int) ∧ a.size s = .ok (List.length l : Int) ∧
      ∀ i : Nat, i < List.length l → a.un s i = List.getD l i .ub
  | .two, a, s, M =>
      a.rows s = (M.m : Int) ∧ a.cols s = (M.n : Int) ∧ a.size s = .ok ((M.m * M.n : Nat) : Int) ∧
      ∀ i j : Nat, i < M.m → j < M.n →
        a.un2 s i j = M.el i j ∧ a.un s ((i * M.n + j : Nat) : Int) = M.el i j

/-- Every array in the store satisfies the invariants of the array classes (C24, C34) and is small
enough. -/
def Store.Ok {α : Type} (s : Store α) : Prop :=
  (∀ id, ((s.a1 id).length : Int) < 2 ^ 63 - 1) ∧
  (∀ id, Shape (s.a2 id) ∧ ((s.a2 id).data.length : Int) < 2 ^ 63 - 1)

/-- Same sizes, possibly different elements. -/
def SameSizes {α : Type} (s t : Store α) : Prop :=
  (∀ id, (s.a1 id).length = (t.a1 id).length) ∧
  (∀ id, (s.a2 id).rows = (t.a2 id).rows ∧ (s.a2 id).cols = (t.a2 id).cols ∧
    (s.a2 id).data.length = (t.a2 id).data.length)

/-! ### Which programs are accepted -/

/-- The numbers in the request are values of type `index_t`. -/
def _root_.Spp.SliceReq.Args : SliceReq → Prop
  | .seqN start size stride => IsIndex start ∧ IsIndex size ∧ IsIndex stride
  | .seq first last stride => IsIndex first ∧ IsIndex last ∧ IsIndex stride
  | .skipN k => IsIndex k
  | .firstN k => IsIndex k
  | .lastN k => IsIndex k
  | .vec idx => ∀ i ∈ idx, IsIndex i
  | .complement idx => ∀ i ∈ idx, IsIndex i
  | _ => True

/-- The request selects only elements that exist in an extent of `n` elements (and is in its
documented form). -/
def _root_.Spp.SliceReq.Valid (n : Int) : SliceReq → Prop
  | .seqN start size stride =>
      0 ≤ start ∧ 0 ≤ size ∧ ∀ i : Int, 0 ≤ i → i < size → InRange n (start + i * stride)
  | .seq first last stride => InRange n first ∧ InRange n last ∧ Consistent first last stride
  -- (the implementation adds the stride to the size)
  | .skipN k => 0 < k ∧ n + k < 2 ^ 63
  | .firstN k => 0 ≤ k ∧ k ≤ n
  | .lastN k => 0 ≤ k ∧ k ≤ n
  | .vec idx => ∀ i ∈ idx, InRange n i
  | .complement idx => Increasing idx ∧ ∀ i ∈ idx, InRange n i
  | _ => True

/-- The numbers in the position are values of type `index_t`. -/
def _root_.Spp.Pos.Args : Pos → Prop
  | .at i => IsIndex i
  | .fromLast k => IsIndex k

/-- The numbers in the view are values of type `index_t`. -/
def _root_.Spp.View.Args : {d d' : Dim} → View d d' → Prop
  | _, _, .slice r => r.Args
  | _, _, .slice2 r1 r2 => r1.Args ∧ r2.Args
  | _, _, .rows r => r.Args
  | _, _, .cols r => r.Args
  | _, _, .row p => p.Args
  | _, _, .col p => p.Args
  | _, _, .diag => True
  | _, _, .diagK k => IsIndex k
  | _, _, .block i1 j1 i2 j2 => i1.Args ∧ j1.Args ∧ i2.Args ∧ j2.Args
  | _, _, .blockN i1 j1 m n => i1.Args ∧ j1.Args ∧ IsIndex m ∧ IsIndex n
  | _, _, .view1D => True
  | _, _, .view2D _ m n => IsIndex m ∧ IsIndex n

/-- The view makes sense for an object with `m` rows and `n` columns (for a list: `m` elements and
`n = 1`). -/
def _root_.Spp.View.Valid (m n : Nat) : {d d' : Dim} → View d d' → Prop
  | _, _, .slice r => r.Valid m
  | _, _, .slice2 r1 r2 => r1.Valid m ∧ r2.Valid n
  | _, _, .rows r => r.Valid m
  | _, _, .cols r => r.Valid n
  | _, _, .row p => InRange m (target m p)
  | _, _, .col p => InRange n (target n p)
  | _, _, .diag => True
  | _, _, .diagK k => -(m : Int) < k ∧ k < n
  | _, _, .block i1 j1 i2 j2 =>
      InRange m (target m i1) ∧ InRange n (target n j1) ∧ InRange m (target m i2) ∧
      InRange n (target n j2) ∧ target m i1 ≤ target m i2 ∧ target n j1 ≤ target n j2
  | _, _, .blockN i1 j1 p q =>
      NoOverflow m i1 ∧ NoOverflow n j1 ∧ 0 ≤ target m i1 ∧ 0 ≤ target n j1 ∧ 0 ≤ p ∧ 0 ≤ q ∧
      (p ≠ 0 → target m i1 + p ≤ m) ∧ (q ≠ 0 → target n j1 + q ≤ n)
  | _, _, .view1D => True
  | _, _, .view2D _ p q => 0 ≤ p ∧ 0 ≤ q ∧ p * q = ((m * n : Nat) : Int)

/-- Every view that occurs makes sense. -/
def _root_.Spp.Lv.Valid {α : Type} (s : Store α) : {d : Dim} → Lv d → Prop
  | _, .arr1 _ => True
  | _, .arr2 _ => True
  | _, .view v l => l.Valid s ∧ v.Valid (l.cells s).dims.1 (l.cells s).dims.2

/-- Sizes agree where they must, and all positions exist. -/
def _root_.Spp.Tm.Valid {α : Type} (s : Store α) : {d : Dim} → Tm α d → Prop
  | _, .lv l => l.Valid s
  | _, .view v t => t.Valid s ∧ v.Valid (t.meaning s).dims.1 (t.meaning s).dims.2
  | _, .unary _ t => t.Valid s
  | _, .binary _ t1 t2 => t1.Valid s ∧ t2.Valid s ∧ (t1.meaning s).dims = (t2.meaning s).dims
  | _, .scalarL _ _ t => t.Valid s
  | _, .scalarR _ t _ => t.Valid s
  | _, .sequence _ n _ _ => 0 ≤ n
  | _, .linspace ar n start stop => 0 < n ∧ ∃ incr,
      (do let diff ← ar.sub stop start; let m ← ar.ofIndex (n - 1); ar.div diff m) = .ok incr
  | _, .eUnit _ k n => InRange n k
  | _, .const1D n _ => 0 ≤ n
  | _, .const2D m n _ => 0 ≤ m ∧ 0 ≤ n ∧ (m = 0 ↔ n = 0)
  | _, .identity _ n => 0 ≤ n
  | _, .merge t1 t2 => t1.Valid s ∧ t2.Valid s
  | _, .append t _ => t.Valid s
  | _, .prepend _ t => t.Valid s
  | _, .exclude t pos count => t.Valid s ∧ 0 ≤ pos ∧ 0 < count ∧
      pos + count ≤ (t.meaning s).dims.1
  | _, .excludeLast t _ => t.Valid s ∧ 0 < (t.meaning s).dims.1
  | _, .reduce _ _ t => t.Valid s
  | _, .matvec _ t x => t.Valid s ∧ x.Valid s ∧ (t.meaning s).dims.2 = (x.meaning s).dims.1
  | _, .bcast _ t => t.Valid s
  | _, .tensor _ t1 t2 => t1.Valid s ∧ t2.Valid s
  | _, .transpose t => t.Valid s
  | _, .mergeH t1 t2 => t1.Valid s ∧ t2.Valid s ∧
      ((t1.meaning s).dims.1 = 0 ∨ (t2.meaning s).dims.1 = 0 ∨
        (t1.meaning s).dims.1 = (t2.meaning s).dims.1)
  | _, .mergeV t1 t2 => t1.Valid s ∧ t2.Valid s ∧
      ((t1.meaning s).dims.2 = 0 ∨ (t2.meaning s).dims.2 = 0 ∨
        (t1.meaning s).dims.2 = (t2.meaning s).dims.2)

/-! ### Side conditions: 64-bit indexes -/

/-- Every intermediate object of an assignable object is small and all numbers are `index_t`. -/
def _root_.Spp.Lv.Sound {α : Type} (s : Store α) : {d : Dim} → Lv d → Prop
  | _, .arr1 _ => True
  | _, .arr2 _ => True
  | _, .view v l => l.Sound s ∧ v.Args ∧ Small (v.sel (l.cells s))

/-- Every intermediate object of the expression is small, all numbers are `index_t`, and no tensor
product has exactly one empty operand. -/
def _root_.Spp.Tm.Sound {α : Type} (s : Store α) : {d : Dim} → Tm α d → Prop
  | _, .lv l => l.Sound s
  | _, .view v t => t.Sound s ∧ v.Args ∧ Small (v.sel (t.meaning s))
  | _, .unary _ t => t.Sound s
  | _, .binary _ t1 t2 => t1.Sound s ∧ t2.Sound s
  | _, .scalarL _ _ t => t.Sound s
  | _, .scalarR _ t _ => t.Sound s
  | _, .sequence _ n _ _ => n < 2 ^ 63 - 1
  | _, .linspace _ n _ _ => n < 2 ^ 63 - 1
  | _, .eUnit _ _ n => n < 2 ^ 63 - 1
  | _, .const1D n _ => n < 2 ^ 63 - 1
  | _, .const2D m n _ => m * n < 2 ^ 63 - 1
  | _, .identity _ n => n * n < 2 ^ 63 - 1
  | _, .merge t1 t2 => t1.Sound s ∧ t2.Sound s ∧
      ((t1.meaning s).dims.1 + (t2.meaning s).dims.1 : Int) < 2 ^ 63 - 1
  | _, .append t _ => t.Sound s ∧ ((t.meaning s).dims.1 + 1 : Int) < 2 ^ 63 - 1
  | _, .prepend _ t => t.Sound s ∧ ((t.meaning s).dims.1 + 1 : Int) < 2 ^ 63 - 1
  | _, .exclude t pos count => t.Sound s ∧ IsIndex pos ∧ IsIndex count
  | _, .excludeLast t _ => t.Sound s
  | _, .reduce _ _ t => t.Sound s
  | _, .matvec _ t x => t.Sound s ∧ x.Sound s
  | _, .bcast rw t => t.Sound s ∧ Small (Tm.meaning s (.bcast rw t))
  | _, .tensor ar t1 t2 => t1.Sound s ∧ t2.Sound s ∧ Small (Tm.meaning s (.tensor ar t1 t2))
  | _, .transpose t => t.Sound s
  | _, .mergeH t1 t2 => t1.Sound s ∧ t2.Sound s ∧ Small (Tm.meaning s (.mergeH t1 t2))
  | _, .mergeV t1 t2 => t1.Sound s ∧ t2.Sound s ∧ Small (Tm.meaning s (.mergeV t1 t2))

end Spp.Spec
