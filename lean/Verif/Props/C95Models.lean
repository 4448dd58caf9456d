import Verif.Props.C95
import Verif.Props.C43
import Verif.Model.Dataset
/-!
# C95, continued: item-item models, recommendations, and where the files are wrong
-/

namespace Implicit

section
variable {R : Type} [LinearOrder R] [Field R] {f : Nat} {α : Type}

/-- The lines of an item of an item-item model: its neighbours, then the last item of the catalogue with the lowest score,
as often as there are neighbours missing. -/
def NeighboursPadded (lowest32 : R) (sim : SpRows R) (i : Nat) (a : List (Nat × R)) : Prop :=
  ∃ row out, sim[i]? = some row ∧ Spec.IsRanking 11 (Spec.Stored row) (fun j => some (Spec.cell row j)) out ∧
    (11 ≤ row.length → out.length = 11) ∧
    a = out ++ List.replicate (11 - out.length) (sim.length - 1, lowest32)

theorem writeAnswer_append (titles : List α) (name : α) (a b : List (Int × R)) :
    writeAnswer titles name (a ++ b) = (do
      let x ← writeAnswer titles name a
      let y ← writeAnswer titles name b
      pure (x ++ y)) := by
  unfold writeAnswer
  rw [List.mapM_append]

theorem writeAnswer_replicate (titles : List α) (name : α) (x : R) : ∀ k,
    writeAnswer titles name (List.replicate k (-1, x)) =
      writeAnswer titles name (List.replicate k (((titles.length - 1 : Nat) : Int), x))
  | 0 => rfl
  | k + 1 => by
    have ih := writeAnswer_replicate titles name x k
    unfold writeAnswer at ih ⊢
    rw [List.replicate_succ, List.replicate_succ, List.mapM_cons, List.mapM_cons, ih, pyIndex_last]

/-- **C95** (item-item models, exactly): the program succeeds; the lines of an artist are its (at most 11) best stored
neighbours, then lines with the *last artist of the catalogue* and the lowest `float32` up to eleven lines.  An artist
with at least 11 stored neighbours has no such line. -/
theorem C95_neighbours (A : ArgSort R) (lowest lowest32 : R) (artists : List α) (plays sim : SpRows R)
    (hplays : plays.length = artists.length) (hsim : sim.length = artists.length)
    (hrows : ∀ row ∈ sim, (row.map Prod.fst).Nodup ∧ ∀ e ∈ row, e.1 < sim.length) :
    ∃ file order, similarArtists artists plays (askNeighbours A lowest lowest32 sim) = .ok file ∧
      Spec.PopularFirst (fun i => (plays.getD i []).length) artists.length order ∧
      Spec.ListingOf artists artists order (NeighboursPadded lowest32 sim) file := by
  obtain ⟨order, eo, hord⟩ := (C95_order plays artists.length).1 (by omega)
  have hlt : ∀ i ∈ order, i < artists.length := fun i hi => (hord.1 i).mp hi
  have hone : ∀ i ∈ order, ∃ row out, sim[i]? = some row ∧
      knnSimilarOne A lowest sim i 11 none none false = .ok (intRow out) ∧
      Spec.IsRanking 11 (Spec.Stored row) (fun j => some (Spec.cell row j)) out := by
    intro i hi
    have hx := List.getElem?_eq_getElem (show i < sim.length by rw [hsim]; exact hlt i hi)
    obtain ⟨out, e, h⟩ := C51_neighbours A lowest sim i 11 false _ hx (hrows _ (List.mem_of_getElem? hx)).1
    exact ⟨_, out, hx, e, h⟩
  choose! row out hrow hout hrank using hone
  have hlen : ∀ i ∈ order, (out i).length ≤ 11 := fun i hi => (hrank i hi).atMost
  suffices hs : ∃ file, writeFile artists artists (fun _ => false) (askNeighbours A lowest lowest32 sim) order = .ok file ∧
      Spec.ListingOf artists artists (order.filter fun _ => !false) (NeighboursPadded lowest32 sim) file by
    obtain ⟨file, ef, hl⟩ := hs
    refine ⟨file, order, ?_, hord, by simpa using hl⟩
    unfold similarArtists
    rw [eo]
    exact ef
  refine writeFile_listing hlt
    ⟨fun i => out i ++ List.replicate (11 - (out i).length) (sim.length - 1, lowest32),
     fun i => batchRow lowest32 11 (intRow (out i)), fun i hi => ⟨⟨row i, out i, hrow i hi, hrank i hi, ?_, rfl⟩, ?_⟩,
     fun i hi name => ?_, fun batch hb hsub => ?_⟩
  · intro h11
    by_contra hne
    have hlt' : (out i).length < 11 := lt_of_le_of_ne (hlen i hi) hne
    have hsub : (row i).map Prod.fst ⊆ (out i).map Prod.fst := by
      intro j hj
      obtain ⟨e, he, rfl⟩ := List.mem_map.mp hj
      exact (hrank i hi).complete hlt' e.1 ⟨e.2, he⟩
    have hnd := (hrows _ (List.mem_of_getElem? (hrow i hi))).1
    have := (hnd.subperm hsub).length_le
    simp only [List.length_map] at this
    omega
  · intro p hp
    have hpos : 0 < artists.length := lt_of_le_of_lt (Nat.zero_le _) (hlt i hi)
    rcases List.mem_append.mp hp with hp | hp
    · obtain ⟨v, hv⟩ := ((hrank i hi).mem p hp).1
      have := (hrows _ (List.mem_of_getElem? (hrow i hi))).2 _ hv
      rw [hsim] at this
      exact this
    · have := (List.mem_replicate.mp hp).2
      subst this
      simp only
      omega
  · have h1 : batchRow lowest32 11 (intRow (out i)) =
        intRow (out i) ++ List.replicate (11 - (out i).length) (-1, lowest32) := by
      unfold batchRow
      have hl : (intRow (out i)).length = (out i).length := by simp [intRow]
      rw [hl, List.take_of_length_le]
      have := hlen i hi
      simp [hl]
      omega
    have h2 : intRow (out i ++ List.replicate (11 - (out i).length) (sim.length - 1, lowest32)) =
        intRow (out i) ++ List.replicate (11 - (out i).length) (((artists.length - 1 : Nat) : Int), lowest32) := by
      simp [intRow, hsim]
    beta_reduce
    rw [h1, h2, writeAnswer_append, writeAnswer_append, writeAnswer_replicate]
  · unfold askNeighbours knnSimilar
    have := batchCall_rows lowest32 11 (fun (_ : Unit) (i : Nat) _ =>
        (knnSimilarOne A lowest sim i 11 none none false, ())) () (fun _ _ => rfl) none
      (fun j => intRow (out (batch.getD j 0))) batch 0 (by simp) (by
        intro j id hj
        simp only [Nat.zero_add, List.getD_eq_getElem?_getD, hj]
        exact hout id (hsub id (List.mem_of_getElem? hj)))
    simp only [Bool.false_eq_true, if_false, this, Except.map, bind, Except.bind]
    congr 1
    apply List.ext_getElem?
    intro j
    by_cases hj : j < batch.length
    · simp [hj]
    · simp [hj]

/-- What `calculate_recommendations` writes for a user: the best artists they have not listened to; then, when fewer
than ten are left, artists they *have* listened to with the lowest score, then, when the catalogue itself is shorter,
artist 0 with score 0. -/
def RecommendedPadded (neginf : R) (m : Factors f R) (userPlays : SpRows R) (i : Nat) (a : List (Nat × R)) : Prop :=
  ∃ x liked good rest, m.user[i]? = some x ∧ userPlays[i]? = some liked ∧
    a = good ++ rest ++ List.replicate (10 - m.item.length) (0, 0) ∧
    Spec.IsRanking 10 (fun j => j < m.item.length ∧ ∀ e ∈ liked, e.1 ≠ j) (fun j => (m.item[j]?).map (dot x)) good ∧
    (∀ p ∈ rest, (∃ e ∈ liked, e.1 = p.1) ∧ p.2 = neginf) ∧
    (good ++ rest).length = min 10 m.item.length ∧
    (10 ≤ ((List.range m.item.length).filter fun j => decide (j ∉ liked.map Prod.fst)).length →
      rest = [] ∧ good.length = 10)

/-- **C95** (recommendations, exactly): the program succeeds; every user, in order, has ten lines, as described above.
A user with ten artists left to recommend has the ten best of them and nothing else. -/
theorem C95_recommendations (H : HeapImpl (R × Nat) pairLt) (neginf : R) (m : Factors f R)
    (recalc : SpRows R → Except Err (List (Vec f R))) (users artists : List α) (userPlays : SpRows R)
    (hu : m.user.length = users.length) (hp : userPlays.length = users.length) (hi : m.item.length = artists.length)
    (hne : m.item ≠ []) (hplays : ∀ row ∈ userPlays, ∀ e ∈ row, e.1 < m.item.length)
    (hlow : ∀ x ∈ m.user, ∀ y ∈ m.item, neginf < dot x y) :
    ∃ file, userRecommendations users artists (askRecommend H neginf m recalc userPlays) = .ok file ∧
      Spec.ListingOf users artists (List.range users.length) (RecommendedPadded neginf m userPlays) file := by
  have hone : ∀ i, i < users.length → ∃ a liked, userPlays[i]? = some liked ∧ RecommendedPadded neginf m userPlays i a ∧
      (∀ p ∈ a, p.1 < m.item.length) ∧
      recommend H neginf m recalc (.one i) (some [liked]) 10 true none false none = .ok (.one a) := by
    intro i hiu
    have hx := List.getElem?_eq_getElem (show i < m.user.length by omega)
    have hl := List.getElem?_eq_getElem (show i < userPlays.length by omega)
    generalize m.user[i]'(by omega) = x at hx
    generalize userPlays[i]'(by omega) = liked at hl
    have hlk := hplays liked (List.mem_of_getElem? hl)
    obtain ⟨good, rest, e, hr, hrest, hall, hlen, hnd⟩ :=
      C04_filter_answer H neginf m recalc i x hx hne liked hlk none (by simp) (hlow x (List.mem_of_getElem? hx)) 10 (by omega)
    have hr : Spec.IsRanking 10 (fun j => j < m.item.length ∧ ∀ e ∈ liked, e.1 ≠ j)
        (fun j => (m.item[j]?).map (dot x)) good := by simpa using hr
    have hrest : ∀ p ∈ rest, (∃ e ∈ liked, e.1 = p.1) ∧ p.2 = neginf := by simpa using hrest
    have hall : rest ≠ [] → ∀ j, j < m.item.length → (∀ e ∈ liked, e.1 ≠ j) → j ∈ good.map Prod.fst :=
      fun h j h1 h2 => hall h j h1 h2 (by simp)
    refine ⟨_, liked, hl, ⟨x, liked, good, rest, hx, hl, rfl, hr, hrest, hlen, ?_⟩, ?_, e⟩
    · intro hc
      have hge : 10 ≤ m.item.length := le_trans hc (by
        simpa using List.length_filter_le (fun j => decide (j ∉ liked.map Prod.fst)) (List.range m.item.length))
      have hrest0 : rest = [] := by
        by_contra hne'
        have hsub : ((List.range m.item.length).filter fun j => decide (j ∉ liked.map Prod.fst)) ⊆ good.map Prod.fst := by
          intro j hj
          obtain ⟨h1, h2⟩ := List.mem_filter.mp hj
          refine hall hne' j (List.mem_range.mp h1) fun e he hej => ?_
          exact (of_decide_eq_true h2) (List.mem_map.mpr ⟨e, he, hej⟩)
        have h1 := ((List.nodup_range.filter _).subperm hsub).length_le
        have h2 := List.length_pos_iff.mpr hne'
        simp only [List.length_map, List.length_append] at h1 hlen
        omega
      refine ⟨hrest0, ?_⟩
      subst hrest0
      simp only [List.append_nil] at hlen
      omega
    · intro p hpm
      have hpos : 0 < m.item.length := List.length_pos_iff.mpr hne
      rcases List.mem_append.mp hpm with hpm | hpm
      · rcases List.mem_append.mp hpm with hpm | hpm
        · exact (hr.mem p hpm).1.1
        · obtain ⟨⟨e, he, hep⟩, _⟩ := hrest p hpm
          rw [← hep]
          exact hlk e he
      · rw [(List.mem_replicate.mp hpm).2]
        exact hpos
  choose! a liked hliked hP hlt hrec using hone
  have hord : ∀ i ∈ List.range users.length, i < users.length := fun i hi => List.mem_range.mp hi
  suffices hs : ∃ file, writeFile users artists (fun _ => false) (askRecommend H neginf m recalc userPlays)
      (List.range users.length) = .ok file ∧
      Spec.ListingOf users artists ((List.range users.length).filter fun _ => !false)
        (RecommendedPadded neginf m userPlays) file by
    obtain ⟨file, ef, hl⟩ := hs
    exact ⟨file, ef, by simpa using hl⟩
  refine writeFile_listing hord
    ⟨a, fun i => intRow (a i), fun i hiu => ⟨hP i (hord i hiu), fun p hpm => by
      rw [← hi]; exact hlt i (hord i hiu) p hpm⟩, fun _ _ _ => rfl, fun batch hb hsub => ?_⟩
  · have hg : gather userPlays batch = .ok (batch.map liked) := (gather_ok _ _ _).mpr ⟨by simp, fun j i hj =>
      ⟨liked i, hliked i (hord i (hsub i (List.mem_of_getElem? hj))), by simp [hj]⟩⟩
    have hnr : ∀ ids ui, recommend H neginf m recalc ids ui 10 true none false none =
        recommend H neginf m (fun rows => rows.mapM fun _ => .error .notImplemented) ids ui 10 true none false none := by
      intro ids ui
      rfl
    have hsingle : ∀ r u, batch[r]? = some u →
        recommend H neginf m (fun rows => rows.mapM fun _ => .error .notImplemented) (.one u)
          (rowMatrix (some (batch.map liked)) r) 10 true none false none = .ok (.one (a u)) := by
      intro r u hru
      have : rowMatrix (some (batch.map liked)) r = some [liked u] := by simp [rowMatrix, hru]
      rw [this, ← hnr]
      exact hrec u (hord u (hsub u (List.mem_of_getElem? hru)))
    obtain ⟨rows, e⟩ := C03_recommend_batch_complete H neginf m (fun rows => rows.mapM fun _ => .error .notImplemented)
      (fun _ => .error .notImplemented) (fun _ => rfl) batch hb (batch.map liked) (by simp) 10 true none false none
      (fun r u hru => ⟨_, hsingle r u hru⟩)
    obtain ⟨rows', e', hl', hr'⟩ := C03_recommend_batch H neginf m (fun rows => rows.mapM fun _ => .error .notImplemented)
      (fun _ => .error .notImplemented) (fun _ => rfl) batch (some (batch.map liked)) 10 true none false none _ e
    cases e'
    unfold askRecommend
    rw [hg]
    simp only [bind, Except.bind]
    rw [hnr, e]
    simp only
    congr 1
    apply List.ext_getElem?
    intro j
    rw [List.getElem?_map, List.getElem?_map]
    cases hj : batch[j]? with
    | none =>
      have : rows[j]? = none := by
        rw [List.getElem?_eq_none_iff] at hj ⊢
        omega
      rw [this]
      rfl
    | some u =>
      obtain ⟨row, e1, e2⟩ := hr' j u hj
      rw [hsingle j u hj] at e2
      cases e2
      rw [e1]
      rfl

/-- **C95** (`--min_rating`): exactly the nonzero ratings of at least the minimum stay, each as a 1, in place. -/
theorem C95_positive (minRating : R) (ratings : SpRows R) :
    (positiveRatings minRating ratings).length = ratings.length ∧
    ∀ (i : Nat) row, ratings[i]? = some row → ∃ row', (positiveRatings minRating ratings)[i]? = some row' ∧
      row'.map Prod.fst = (row.filter fun e => decide (minRating ≤ e.2 ∧ e.2 ≠ 0)).map Prod.fst ∧
      ∀ e ∈ row', e.2 = 1 := by
  refine ⟨by simp [positiveRatings], fun i row hrow => ⟨_, by simp [positiveRatings, hrow]; rfl, ?_, ?_⟩⟩
  · clear hrow
    induction row with
    | nil => rfl
    | cons e row ih =>
      by_cases h1 : e.2 < minRating
      · have h2 : ¬ (minRating ≤ e.2 ∧ e.2 ≠ 0) := fun h => absurd h.1 (not_le.mpr h1)
        simpa [h1, h2] using ih
      · by_cases h0 : e.2 = 0
        · have h2 : ¬ (minRating ≤ e.2 ∧ e.2 ≠ 0) := fun h => h.2 h0
          rw [List.filter_cons_of_neg (by simpa using h2), ← ih, List.map_cons, if_neg h1,
            List.filter_cons_of_neg (by simpa using h0)]
        · have h2 : minRating ≤ e.2 ∧ e.2 ≠ 0 := ⟨not_lt.mp h1, h0⟩
          simpa [h1, h0, not_lt.mp h1] using ih
  · intro e he
    obtain ⟨e', _, rfl⟩ := List.mem_map.mp he
    rfl

end

/-- **C95 is violated** for the item-item models: with two artists that have no listener in common, the file says that
"b" is a neighbour of "a" with the lowest score, ten times. -/
theorem C95_padding_violated (A : ArgSort Rat) (lowest lowest32 : Rat) :
    similarArtists ["a", "b"] [[(0, 1)], [(1, 1)]] (askNeighbours A lowest lowest32 [[(0, 1)], [(1, 1)]]) =
      .ok (("a", "a", 1) :: List.replicate 10 ("a", "b", lowest32) ++
        ("b", "b", 1) :: List.replicate 10 ("b", "b", lowest32)) := by
  have hs : ∀ p, A.sort [p] = [p] := fun p => List.perm_singleton.mp (A.perm [p])
  have ho : popularOrder [[(0, (1 : Rat))], [(1, 1)]] 2 = .ok [0, 1] := by decide +kernel
  unfold similarArtists
  simp only [List.length_cons, List.length_nil, ho, bind, Except.bind]
  have ha : askNeighbours A lowest lowest32 [[(0, (1 : Rat))], [(1, 1)]] [0, 1] =
      .ok [(0, 1) :: List.replicate 10 (-1, lowest32), (1, 1) :: List.replicate 10 (-1, lowest32)] := by
    simp [askNeighbours, knnSimilar, batchCall, batchArg, knnSimilarOne, argsortDesc, intRow, hs, batchRow, Except.map, bind,
      Except.bind]
  unfold writeFile
  have hsl : slices 1000 [0, 1] = [[0, 1]] := by decide +kernel
  rw [hsl]
  simp only [List.mapM_cons, List.mapM_nil, writeBatch, ha, bind, Except.bind]
  rfl

/-- **C95 is violated** for the recommendations: user "u" has listened to "a", whose score is 1; with two artists in all,
the file recommends "a" to them, with score 0. -/
theorem C95_recommendations_violated (H : HeapImpl (Rat × Nat) pairLt) :
    ∃ file, userRecommendations ["u"] ["a", "b"]
        (askRecommend H (-1000) (⟨[![1]], [![1], ![2]]⟩ : Factors 1 Rat) noRecalc [[(0, 3)]]) = .ok file ∧
      ("u", "a", 0) ∈ file := by
  obtain ⟨file, e, parts, rfl, h⟩ := C95_recommendations H (-1000) (⟨[![1]], [![1], ![2]]⟩ : Factors 1 Rat) noRecalc
    ["u"] ["a", "b"] [[(0, 3)]] rfl rfl rfl (by simp) (by simp) (by simp [dot]; norm_num)
  refine ⟨_, e, ?_⟩
  have hr : List.range ["u"].length = [0] := rfl
  rw [hr] at h
  obtain ⟨part, parts', ⟨a, ha, hs⟩, hn, rfl⟩ := List.forall₂_cons_left_iff.mp h
  obtain ⟨x, liked, good, rest, h1, h2, h3, _⟩ := ha
  have hm : ((0 : Nat), (0 : Rat)) ∈ a := by
    rw [h3]
    simp
  obtain ⟨j, hj, hja⟩ := List.getElem_of_mem hm
  have hl := hs.length_eq
  have := List.Forall₂.get hs hj (by omega)
  simp only [List.get_eq_getElem, hja] at this
  obtain ⟨g1, g2, g3⟩ := this
  have hline : part[j]'(by omega) = ("u", "a", 0) := by
    apply Prod.ext
    · simpa using g1.symm
    · apply Prod.ext
      · simpa using g2.symm
      · exact g3
  rw [List.flatten_cons, List.mem_append]
  exact .inl (hline ▸ List.getElem_mem _)

/-- **C95 is violated** for `movielens.py`: whatever the model answers, a title file which goes on after the last rated movie
ends the program with `IndexError` (here the titles of movies 1 and 3, and a rating of movie 1 only). -/
theorem C95_titles_violated :
    (∀ (α R : Type) (titles : List α) (ratings : SpRows R) ask, ratings.length < titles.length →
      similarMovies titles ratings ask = .error .indexError) ∧
    ∀ ask, similarMovies (movieTitles "" [(1, "x"), (3, "y")]) [[], [(0, (5 : Rat))]] ask = .error .indexError := by
  have h : ∀ (α R : Type) (titles : List α) (ratings : SpRows R) ask, ratings.length < titles.length →
      similarMovies titles ratings ask = .error .indexError := by
    intro α R titles ratings ask hlt
    unfold similarMovies
    rw [(C95_order ratings titles.length).2 hlt]
    rfl
  exact ⟨h, fun ask => h _ _ _ _ ask (by simp [movieTitles])⟩

/-! Instances. -/

/-- Popular first: rows of 1, 3, 0 and 3 entries. -/
example : popularOrder [[(0, (1 : Rat))], [(0, 1), (1, 1), (2, 1)], [], [(3, 1), (4, 1), (5, 1)]] 4 =
    .ok [1, 3, 0, 2] := by decide +kernel

/-- The hypotheses of `C95_artists` are met. -/
example : ∃ (artists : List String) (plays : SpRows ℝ) (factors : List (Vec 1 ℝ)), plays.length = artists.length ∧
    factors.length = artists.length ∧ 11 ≤ artists.length :=
  ⟨List.replicate 12 "a", List.replicate 12 [(0, 1)], List.replicate 12 ![1], by simp, by simp, by simp⟩

/-- Ratings of 5, 3 and 4 stars with a minimum of 4. -/
example : positiveRatings 4 [[(0, (5 : Rat)), (1, 3), (2, 4)], [(1, 2)]] = [[(0, 1), (2, 1)], []] := by decide +kernel

/-- A movie without a rating has no section. -/
example : similarMovies ["x", "y"] [[], [(0, (5 : Rat))]] (fun b => .ok (b.map fun i => [((i : Int), 1), (0, 1/2)])) =
    .ok [("y", "y", 1), ("y", "x", 1/2)] := by decide +kernel

/-- 2500 ids are asked for in three batches. -/
example : (slices 1000 (List.range 2500)).map List.length = [1000, 1000, 500] := by
  decide +kernel

end Implicit
