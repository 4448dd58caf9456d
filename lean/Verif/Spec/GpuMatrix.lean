import Verif.Model.GpuMatrix

/-!
# Specification of device matrices: value semantics

A matrix is a value, a list of rows.  Every statement creates a new value or replaces one; no statement changes
another value.  `group` names the storage: views have the group of their source.  `none`: the statement raises.
-/

namespace Implicit.Spec

variable {R : Type}

structure Val (R : Type) where
  group : Nat
  cols : Nat
  itemsize : Nat
  rows : List (List R)

/-- All values, and the number of groups so far. -/
structure Vals (R : Type) where
  next : Nat
  vals : List (Val R)

def Vals.fresh (s : Vals R) (cols itemsize : Nat) (rows : List (List R)) : Vals R :=
  ⟨s.next + 1, s.vals ++ [⟨s.next, cols, itemsize, rows⟩]⟩

def Vals.share (s : Vals R) (v : Val R) (rows : List (List R)) : Vals R :=
  ⟨s.next, s.vals ++ [{ v with rows := rows }]⟩

/-- The element `(i, j)` of a numpy array. -/
def hostElem [Zero R] (x : HostArray R) (i j : Nat) : R := x.mem.getD (x.start + i * x.stride0 + j * x.stride1) 0

/-- Row `r` after assigning `src[j]` to row `ids[j]` for every `j` (distinct ids). -/
def assigned (ids : List Int) (src : List (List R)) (r : Nat) (old : List R) : List R :=
  match ids.findIdx? (· == (r : Int)) with
  | some j => src.getD j old
  | none => old

/-- What indexing selects. -/
def selectRows (rows : List (List R)) : DevIndex → Option (List (List R))
  | .slice start stop step =>
    let a := start.getD 0
    let b := stop.getD rows.length
    if (step = none ∨ step = some 0 ∨ step = some 1) ∧ 0 ≤ a ∧ a ≤ b ∧ b ≤ rows.length then
      some ((rows.drop a.toNat).take (b.toNat - a.toNat))
    else none
  | .int i => if 0 ≤ i ∧ i < rows.length ∧ i < 2 ^ 31 then some [rows.getD i.toNat []] else none
  | .ids l => if l ≠ [] ∧ ∀ i ∈ l, 0 ≤ i ∧ i < (rows.length : Int) then
      some (l.map fun i => rows.getD i.toNat []) else none
  | .other => none

/-- The effect of a statement on the values. -/
def valStep [Zero R] (toHalf : R → R) (s : Vals R) : DevOp R → Option (Vals R)
  | .fromHost x =>
    if (x.itemsize = 4 ∨ x.itemsize = 2) ∧ x.rows ≠ 0 ∧ x.cols ≠ 0 then
      some (s.fresh x.cols x.itemsize
        ((List.range x.rows).map fun i => (List.range x.cols).map fun j => hostElem x i j))
    else none
  | .zeros r c => some (s.fresh c 4 (List.replicate r (List.replicate c 0)))
  | .getItem h idx => do
    let v ← s.vals[h]?
    let rows ← selectRows v.rows idx
    match idx with
    | .ids _ => some (s.fresh v.cols v.itemsize rows)
    | _ => some (s.share v rows)
  | .assignRows _ h o ids => do
    let v ← s.vals[h]?
    let w ← s.vals[o]?
    if ids ≠ [] ∧ v.cols = w.cols ∧ v.itemsize = 4 ∧ w.itemsize = 4 then
      some { s with vals := s.vals.set h { v with rows := v.rows.mapIdx (assigned ids w.rows) } }
    else none
  | .asType h n => do
    let v ← s.vals[h]?
    if n = v.itemsize ∧ (n = 2 ∨ n = 4) then some (s.share v v.rows)
    else if n = 2 then some (s.fresh v.cols 2 (v.rows.map (List.map toHalf)))
    else if n = 4 then some (s.fresh v.cols 4 v.rows)
    else none
  | .resize h r c => do
    let v ← s.vals[h]?
    if c = v.cols ∧ (v.rows.length : Int) ≤ r ∧ v.cols < 2 ^ 64 then
      some ⟨s.next + 1, s.vals.set h
        { v with group := s.next,
                 rows := v.rows ++ List.replicate (r.toNat - v.rows.length) (List.replicate v.cols 0) }⟩
    else none

/-- The values after a session; statements that raise change nothing. -/
def valRun [Zero R] (toHalf : R → R) (s : Vals R) (ops : List (DevOp R)) : Vals R :=
  ops.foldl (fun s op => (valStep toHalf s op).getD s) s

/-- The statements for which value semantics is claimed: C-contiguous host arrays, 32 bit ids, and row
assignments with exactly one valid id for each source row, in any order of execution, to a matrix that shares
its storage with no other. -/
def Safe (s : Vals R) : DevOp R → Prop
  | .fromHost x => x.stride1 = 1 ∧ x.stride0 = x.cols ∧ x.start + x.rows * x.cols ≤ x.mem.length ∧ x.rows < 2 ^ 63
  | .zeros r _ => r < 2 ^ 63
  | .getItem _ (.ids l) => l.length < 2 ^ 63 ∧ ∀ i ∈ l, -2 ^ 31 ≤ i ∧ i < 2 ^ 31
  | .getItem _ _ => True
  | .assignRows order h o ids => ∀ v w : Val R, s.vals[h]? = some v → s.vals[o]? = some w →
      ids ≠ [] → v.cols = w.cols → v.itemsize = 4 → w.itemsize = 4 →
      o ≠ h ∧ order.Perm (List.range (w.rows.length * w.cols)) ∧ ids.length = w.rows.length ∧ ids.Nodup ∧
      (∀ i ∈ ids, 0 ≤ i ∧ i < (v.rows.length : Int) ∧ i < 2 ^ 31) ∧
      ∀ (j : Nat) (u : Val R), s.vals[j]? = some u → j ≠ h → u.group ≠ v.group
  | .asType _ _ => True
  | .resize _ r _ => r < 2 ^ 63

/-- Every statement of the session is safe when it is executed. -/
def SafeRun [Zero R] (toHalf : R → R) : Vals R → List (DevOp R) → Prop
  | _, [] => True
  | s, op :: ops => Safe s op ∧ SafeRun toHalf ((valStep toHalf s op).getD s) ops

/-- Matrix `m` of the device holds the value `v`. -/
structure Shows (d : Device R) (m : DevMatrix) (v : Val R) : Prop where
  group : m.buf = v.group
  cols : m.cols = v.cols
  itemsize : m.itemsize = v.itemsize
  rows : m.rows = v.rows.length
  width : ∀ row ∈ v.rows, row.length = v.cols
  cells : ∀ (r : Nat) (row : List R), v.rows[r]? = some row → ∀ c < v.cols,
    row[c]? = (d.heap.getD m.buf [])[m.off + r * m.cols + c]?

/-- The device holds exactly the values. -/
def Holds (d : Device R) (s : Vals R) : Prop :=
  d.mats.length = s.vals.length ∧
    ∀ (h : Nat) (m : DevMatrix) (v : Val R), d.mats[h]? = some m → s.vals[h]? = some v → Shows d m v

end Implicit.Spec
