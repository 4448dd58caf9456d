import Verif.Lemmas.Csr
import Verif.Lemmas.KnnScorer
import Verif.Model.LoadAny

/-!
# Lemmas on arrays of any origin
-/

set_option linter.unusedSectionVars false

namespace Implicit

/-! ## `mapM` over a range -/

theorem mapM_range_map {α ε : Type} {g : Nat → Except ε α} (h : Nat → α) (n : Nat) (hg : ∀ j, j < n → g j = .ok (h j)) :
    (List.range n).mapM g = .ok ((List.range n).map h) := by
  rw [mapM_congr' (g' := fun j => .ok (h j)) fun a ha => hg a (List.mem_range.mp ha)]
  induction (List.range n) with
  | nil => rfl
  | cons a l ih => rw [List.mapM_cons, ih]; rfl

theorem mapM_range_error {α ε : Type} {g : Nat → Except ε α} {e : ε} {n : Nat} (hn : 1 ≤ n) (hg : g 0 = .error e) :
    (List.range n).mapM g = .error e := by
  obtain ⟨m, rfl⟩ : ∃ m, n = m + 1 := ⟨n - 1, by omega⟩
  rw [List.range_succ_eq_map, List.mapM_cons, hg]
  rfl

theorem mapM_rows {α β ε : Type} (g : α → Except ε β) (d : ε) (l : List α) :
    l.mapM g = (List.range l.length).mapM fun u => match l[u]? with | none => .error d | some x => g x := by
  have key : ∀ (l : List α) (s : Nat) (F : Nat → Except ε β), (∀ (k : Nat) x, l[k]? = some x → F (s + k) = g x) →
      l.mapM g = (List.range' s l.length).mapM F := by
    intro l
    induction l with
    | nil => intro s F _; rfl
    | cons a l ih =>
      intro s F h
      rw [List.length_cons, List.range'_succ, List.mapM_cons, List.mapM_cons, ← ih (s + 1) F fun k x hx => by
        have := h (k + 1) x (by simpa using hx)
        rwa [show s + (k + 1) = s + 1 + k by omega] at this]
      have := h 0 a rfl
      rw [Nat.add_zero] at this
      rw [this]
  rw [List.range_eq_range']
  refine key l 0 _ fun k x hx => ?_
  rw [Nat.zero_add]
  simp only [hx]

variable {R : Type} [LinearOrder R] [Field R]

/-! ## Factor arrays -/

/-- The array has as many elements as its shape says. -/
def Arr2.Sized (a : Arr2 R) : Prop := a.data.length = a.rows * a.cols

theorem ofComponents_map (n : Nat) (h : Nat → R) : ofComponents n ((List.range n).map h) = fun j : Fin n => h j := by
  funext j
  unfold ofComponents
  simp [List.getD_eq_getElem?_getD]

theorem read_entry {a : Arr2 R} {k : Nat} (h : k < a.data.length) : a.read k = .ok (a.data.getD k 0) := by
  unfold Arr2.read
  rw [List.getD_eq_getElem?_getD, List.getElem?_eq_getElem h]
  rfl

theorem read_out {a : Arr2 R} {k : Nat} (h : a.data.length ≤ k) : a.read k = .error .undefinedBehaviour := by
  unfold Arr2.read
  rw [List.getElem?_eq_none h]

theorem c_addr_lt {r c i j : Nat} (hi : i < r) (hj : j < c) : i * c + j < r * c := by
  calc i * c + j < i * c + c := by omega
    _ = (i + 1) * c := by ring
    _ ≤ r * c := Nat.mul_le_mul_right c hi

theorem fortran_addr_lt {r c i j : Nat} (hi : i < r) (hj : j < c) : i + j * r < r * c := by
  calc i + j * r < r + j * r := by omega
    _ = r * (j + 1) := by ring
    _ ≤ r * c := Nat.mul_le_mul_left r hj

theorem addr_lt {a : Arr2 R} (ha : a.Sized) {i j : Nat} (hi : i < a.rows) (hj : j < a.cols) : a.addr i j < a.data.length := by
  unfold Arr2.addr
  rw [ha]
  split
  · exact fortran_addr_lt hi hj
  · exact c_addr_lt hi hj

/-- What is behind `&a[i, 0]` stays inside of the array, for every memory order. -/
theorem blas_addr_lt {a : Arr2 R} (ha : a.Sized) {i j : Nat} (hi : i < a.rows) (hj : j < a.cols) :
    a.addr i 0 + j < a.data.length := by
  unfold Arr2.addr
  rw [ha]
  split
  · rw [Nat.zero_mul, Nat.add_zero]
    obtain ⟨r, hr⟩ : ∃ r, a.rows = r + 1 := ⟨a.rows - 1, by omega⟩
    obtain ⟨c, hc⟩ : ∃ c, a.cols = c + 1 := ⟨a.cols - 1, by omega⟩
    rw [hr, hc]
    have : (r + 1) * (c + 1) = r * c + r + c + 1 := by ring
    omega
  · exact c_addr_lt hi hj

theorem indexRow_ok {a : Arr2 R} (ha : a.Sized) {n i : Nat} (hi : i < a.rows) (hn : n ≤ a.cols) :
    a.indexRow n i = .ok fun j : Fin n => a.entry i j := by
  unfold Arr2.indexRow
  rw [mapM_range_map (fun j => a.entry i j) n fun j hj => read_entry (addr_lt ha hi (by omega))]
  simp only [bind, Except.bind, pure, Except.pure, ofComponents_map]

theorem blasRow_ok {a : Arr2 R} (ha : a.Sized) {n i : Nat} (hi : i < a.rows) (hn : n ≤ a.cols) :
    a.blasRow n i = .ok fun j : Fin n => a.data.getD (a.addr i 0 + j) 0 := by
  unfold Arr2.blasRow
  rw [mapM_range_map (fun j => a.data.getD (a.addr i 0 + j) 0) n fun j hj => read_entry (blas_addr_lt ha hi (by omega))]
  simp only [bind, Except.bind, pure, Except.pure, ofComponents_map]

theorem blasRow_c {a : Arr2 R} (hc : a.fortran = false) (i j : Nat) : a.data.getD (a.addr i 0 + j) 0 = a.entry i j := by
  unfold Arr2.entry Arr2.addr
  simp [hc]

theorem blasRow_out {a : Arr2 R} (ha : a.Sized) {n i : Nat} (hn : 1 ≤ n) (hi : a.rows ≤ i) (hc : a.fortran = false) :
    a.blasRow n i = .error .undefinedBehaviour := by
  unfold Arr2.blasRow
  rw [mapM_range_error (g := fun j => a.read (a.addr i 0 + j)) hn (read_out (by
    unfold Arr2.addr
    rw [hc, ha]
    simp only [Bool.false_eq_true, if_false]
    have := Nat.mul_le_mul_right a.cols hi
    omega))]
  rfl

theorem table_length (a : Arr2 R) (n : Nat) : (a.table n).length = a.rows := by
  unfold Arr2.table
  simp

theorem table_get {a : Arr2 R} {n i : Nat} (hi : i < a.rows) : (a.table n)[i]? = some fun j : Fin n => a.entry i j := by
  unfold Arr2.table
  simp [hi]

theorem gram_table (a : Arr2 R) (n : Nat) (p q : Fin n) : gram (a.table n) p q = a.gram p q := by
  unfold gram Arr2.gram Arr2.table
  rw [List.map_map]
  rfl

theorem memEntries_c {a : Arr2 R} (ha : a.Sized) (hc : a.fortran = false) {n : Nat} (hn : 1 ≤ n) (hle : n ≤ a.cols)
    (row : List (Nat × R)) :
    memEntries a n row = (rowEntries .undefinedBehaviour (a.table n) row).map fun es => es.map fun e => (e.1, e.1, e.2) := by
  induction row with
  | nil => rfl
  | cons e row ih =>
    obtain ⟨i, c⟩ := e
    unfold memEntries rowEntries
    by_cases hi : i < a.rows
    · rw [table_get hi, blasRow_ok ha hi hle, indexRow_ok ha hi hle, ih]
      simp only [blasRow_c hc]
      simp only [bind, Except.bind]
      cases rowEntries .undefinedBehaviour (a.table n) row <;> rfl
    · rw [blasRow_out ha hn (by omega) hc, List.getElem?_eq_none (by rw [table_length]; omega)]
      rfl

theorem memAccumulate_same {n : Nat} (s : Mat n R × Vec n R) (e : Vec n R × R) :
    memAccumulate s (e.1, e.1, e.2) = accumulate s e := rfl

theorem memLeastSquaresRow_c {n : Nat} (S : Solver n R) {a : Arr2 R} (ha : a.Sized) (hc : a.fortran = false) (hn : 1 ≤ n)
    (hle : n ≤ a.cols) (G : Mat n R) (reg : R) (row : List (Nat × R)) :
    memLeastSquaresRow S (regularised G reg) a row = leastSquaresRow S G (a.table n) reg row := by
  unfold memLeastSquaresRow leastSquaresRow
  rw [memEntries_c ha hc hn hle]
  split
  · rfl
  · cases rowEntries .undefinedBehaviour (a.table n) row with
    | error e => rfl
    | ok es =>
      simp only [Except.map, bind, Except.bind]
      have : (es.map fun e => (e.1, e.1, e.2)).foldl memAccumulate (regularised G reg, fun _ => 0) =
          linearEquation G reg es := by
        unfold linearEquation
        rw [List.foldl_map]
        rfl
      rw [this]
      rfl

theorem addEye_eq {n : Nat} (G : Nat → Nat → R) (reg : R) :
    addEye n n G reg = .ok (regularised (fun a b : Fin n => G a b) reg) := by
  unfold addEye regularised
  simp only [if_true]

/-! ## Similarity arrays -/

/-- The arrays of the matrix with rows `C`. -/
def rawOf (cols : Nat) (C : SpRows R) : RawCsr R :=
  ⟨C.length, cols, (List.range (C.length + 1)).map fun u => ((C.take u).flatten.length : Int),
    C.flatten.map fun e => (e.1 : Int), C.flatten.map Prod.snd⟩

theorem add_error {a : Accum R} {i : Nat} {v : R} {e : Err} (h : a.add i v = .error e) : e = .undefinedBehaviour := by
  unfold Accum.add at h
  split at h
  · split at h <;> cases h
  · cases h; rfl

theorem addAll_error {a : Accum R} {l : List (Nat × R)} {e : Err} (h : a.addAll l = .error e) : e = .undefinedBehaviour := by
  induction l generalizing a with
  | nil => cases h
  | cons x l ih =>
    unfold Accum.addAll at h
    cases hx : a.add x.1 x.2 with
    | error e' => rw [hx] at h; cases h; exact add_error hx
    | ok b => rw [hx] at h; exact ih h

theorem addAll_append (a : Accum R) (l m : List (Nat × R)) :
    a.addAll (l ++ m) = (a.addAll l).bind fun b => b.addAll m := by
  induction l generalizing a with
  | nil => rfl
  | cons x l ih =>
    rw [List.cons_append]
    have h : ∀ l : List (Nat × R), a.addAll (x :: l) = (a.add x.1 x.2).bind fun b => b.addAll l := fun _ => rfl
    rw [h, h]
    cases a.add x.1 x.2 with
    | error e => rfl
    | ok b => exact ih b

theorem foldlM_addInt (a : Accum R) (r : List (Nat × R)) (w : R) :
    (r.map fun e => ((e.1 : Int), e.2)).foldlM (fun (a : Accum R) x => a.addInt x.1 (x.2 * w)) a =
      a.addAll (r.map fun x => (x.1, x.2 * w)) := by
  induction r generalizing a with
  | nil => rfl
  | cons x r ih =>
    rw [List.map_cons, List.map_cons, List.foldlM_cons]
    unfold Accum.addAll
    change (a.add x.1 (x.2 * w) >>= fun b => _) = _
    cases a.add x.1 (x.2 * w) with
    | error e => rfl
    | ok b => exact ih b

theorem productAdds_error {M : SpRows R} {row : List (Nat × R)} {e : Err} (h : productAdds M row = .error e) :
    e = .undefinedBehaviour := by
  induction row with
  | nil => cases h
  | cons x row ih =>
    unfold productAdds at h
    cases hx : M[x.1]? with
    | none => rw [hx] at h; cases h; rfl
    | some r =>
      rw [hx] at h
      cases hr : productAdds M row with
      | error e' => rw [hr] at h; cases h; exact ih hr
      | ok l => rw [hr] at h; cases h

theorem flatten_get {α : Type} {C : List (List α)} {i : Nat} {r : List α} (h : C[i]? = some r) (t : Nat) (ht : t < r.length) :
    C.flatten[(C.take i).flatten.length + t]? = r[t]? := by
  obtain ⟨hi, he⟩ := List.getElem?_eq_some_iff.mp h
  have hsplit : C.flatten = (C.take i).flatten ++ (r ++ (C.drop (i + 1)).flatten) := by
    conv_lhs => rw [← List.take_append_drop i C]
    rw [List.flatten_append, List.drop_eq_getElem_cons hi, he, List.flatten_cons]
  rw [hsplit, List.getElem?_append_right (by omega), Nat.add_sub_cancel_left, List.getElem?_append_left ht]

theorem take_succ_flatten {α : Type} {C : List (List α)} {i : Nat} {r : List α} (h : C[i]? = some r) :
    (C.take (i + 1)).flatten.length = (C.take i).flatten.length + r.length := by
  rw [List.take_add_one, h]
  simp

theorem rawRow_rawOf (cols : Nat) (C : SpRows R) (i : Nat) :
    rawRow (rawOf cols C) i = match C[i]? with
      | none => .error .undefinedBehaviour
      | some r => .ok (r.map fun e => ((e.1 : Int), e.2)) := by
  unfold rawRow
  by_cases hi : i < C.length
  · have hr : C[i]? = some C[i] := List.getElem?_eq_getElem hi
    have h1 : (rawOf cols C).indptr[i]? = some ((C.take i).flatten.length : Int) := by
      unfold rawOf; simp only [List.getElem?_map, List.getElem?_range (show i < C.length + 1 by omega), Option.map_some]
    have h2 : (rawOf cols C).indptr[i + 1]? = some ((C.take (i + 1)).flatten.length : Int) := by
      unfold rawOf; simp only [List.getElem?_map, List.getElem?_range (show i + 1 < C.length + 1 by omega), Option.map_some]
    rw [h1, h2, hr, take_succ_flatten hr]
    dsimp only
    rw [show ((((C.take i).flatten.length + C[i].length : Nat) : Int) - ((C.take i).flatten.length : Nat)).toNat = C[i].length by omega]
    have key := mapM_range' (C[i].map fun e => ((e.1 : Int), e.2)) 0
      (g := fun t => rawEntry (rawOf cols C) (((C.take i).flatten.length : Int) + (t : Nat))) (fun t x hx => by
        rw [Nat.zero_add]
        rw [List.getElem?_map] at hx
        cases he : C[i][t]? with
        | none => rw [he] at hx; cases hx
        | some e =>
          rw [he] at hx
          cases hx
          have ht := (List.getElem?_eq_some_iff.mp he).1
          have hf := flatten_get hr t ht
          rw [he] at hf
          unfold rawEntry wrapIndex
          rw [if_neg (by omega)]
          rw [show (((C.take i).flatten.length : Nat) : Int) + (t : Nat) = Int.ofNat ((C.take i).flatten.length + t) by simp]
          unfold rawOf
          simp only [List.getElem?_map, hf, Option.map_some])
    rw [List.length_map] at key
    rw [List.range_eq_range']
    exact key
  · rw [List.getElem?_eq_none (l := C) (by omega)]
    have h2 : (rawOf cols C).indptr[i + 1]? = none := by
      unfold rawOf
      simp only [List.getElem?_map, Option.map_eq_none_iff]
      exact List.getElem?_eq_none (by simp; omega)
    rw [h2]
    cases (rawOf cols C).indptr[i]? <;> rfl

theorem rawAdds_rawOf (cols : Nat) (C : SpRows R) (row : List (Nat × R)) (a : Accum R) :
    rawAdds (rawOf cols C) a row = (productAdds C row).bind fun l => a.addAll l := by
  induction row generalizing a with
  | nil => rfl
  | cons e row ih =>
    unfold rawAdds productAdds
    rw [rawRow_rawOf]
    cases hr : C[e.1]? with
    | none => rfl
    | some r =>
      dsimp only
      simp only [bind, Except.bind, pure, Except.pure]
      rw [foldlM_addInt]
      cases hb : a.addAll (r.map fun x => (x.1, x.2 * e.2)) with
      | error e' =>
        have := addAll_error hb
        subst this
        cases hp : productAdds C row with
        | error e2 => rw [productAdds_error hp]
        | ok l =>
          dsimp only
          rw [addAll_append, hb]; rfl
      | ok b =>
        dsimp only
        rw [ih b]
        cases hp : productAdds C row with
        | error e2 => rfl
        | ok l =>
          simp only [Except.bind]
          rw [addAll_append, hb]; rfl

theorem rawScorer_rawOf (H : HeapImpl (R × Nat) pairLt) (cols : Nat) (C : SpRows R) (a : Accum R) (row : List (Nat × R)) (K : Nat)
    (rm : Bool) : rawScorer H (rawOf cols C) a row K rm = scorerRecommend H C a row K rm := by
  unfold rawScorer scorerRecommend
  rw [rawAdds_rawOf]
  cases productAdds C row <;> rfl

theorem csrCheck_rawOf (cols : Nat) (C : SpRows R) : csrCheck (rawOf cols C) = .ok (rawOf cols C) := by
  have hlast : (rawOf cols C).indptr.getLast? = some (C.flatten.length : Int) := by
    unfold rawOf
    dsimp only
    rw [List.range_succ, List.map_append, List.map_singleton, List.getLast?_concat, List.take_length]
  have hi : (rawOf cols C).indices.length = C.flatten.length := List.length_map _
  have hd : (rawOf cols C).data.length = C.flatten.length := List.length_map _
  unfold csrCheck
  rw [if_neg (by unfold rawOf; simp), if_neg (by unfold rawOf; simp [List.range_succ_eq_map]), if_neg (by rw [hi, hd]; simp)]
  rw [hlast, hi]
  dsimp only
  rw [Option.getD_some, if_neg (by omega), if_pos (by omega), Int.toNat_natCast, List.take_of_length_le hi.le,
    List.take_of_length_le hd.le]

end Implicit
