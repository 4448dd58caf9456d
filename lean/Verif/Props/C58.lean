import Mathlib.Algebra.Order.Ring.Rat
import Mathlib.Data.String.Basic
import Mathlib.Tactic.Tauto
import Verif.Lemmas.Dataset
/-!
# C58: a generated dataset file holds the raw data

Generating a dataset file and reading it back gives the names of rows and columns, sorted, and the matrix of the
records, duplicates summed.
-/

namespace Implicit

open Spec (recordSum MatrixOf NamesOf Describes)

variable {R : Type} [AddCommMonoid R] {K : Type} [LinearOrder K]

omit [LinearOrder K] in
theorem flatten_column1 (names : List K) : (column1 names).flatten = names := by
  unfold column1
  induction names with
  | nil => rfl
  | cons k l ih => rw [List.map_cons, List.flatten_cons, ih]; rfl

omit [AddCommMonoid R] [LinearOrder K] in
theorem parse_all {A : Type} (na : Bool) (isNa : K → Bool) (row col : A → K) (val : A → R) (table : List A)
    (h : na = false ∨ ∀ r ∈ table, isNa (row r) = false ∧ isNa (col r) = false) :
    (table.map fun r => (parseId na isNa (row r), parseId na isNa (col r), val r)) =
      (table.map fun r => (row r, col r, val r)).map fun r => (some r.1, some r.2.1, r.2.2) := by
  rw [List.map_map]
  refine List.map_congr_left fun r hr => ?_
  rcases h with h | h
  · simp [parseId, h]
  · simp [parseId, (h r hr).1, (h r hr).2]

/-- The names the generators write. -/
theorem names_fst (records : List (K × K × R)) :
    ((records.map fun r => ((some r.1 : Option K), (some r.2.1 : Option K), r.2.2)).map fun r => r.1) =
      records.map fun r => some r.1 := by rw [List.map_map]; rfl

theorem names_snd (records : List (K × K × R)) :
    ((records.map fun r => ((some r.1 : Option K), (some r.2.1 : Option K), r.2.2)).map fun r => r.2.1) =
      records.map fun r => some r.2.1 := by rw [List.map_map]; rfl

/-! ## Sketchfab -/

theorem getSketchfab_eq (t : CsrTriple R) (items users : List K) :
    getSketchfab ⟨[("item_user_likes", t)], [("item", column1 items), ("user", column1 users)]⟩ =
      (csrMatrix t).map fun m => (items.map .bytes, users.map .bytes, m) := by
  have : getSketchfab ⟨[("item_user_likes", t)], [("item", column1 items), ("user", column1 users)]⟩ =
      (csrMatrix t).map fun m => ((column1 items).flatten.map .bytes, (column1 users).flatten.map .bytes, m) := by
    show (csrMatrix t).bind _ = _
    cases csrMatrix t <;> rfl
  rw [this, flatten_column1, flatten_column1]

/-- **C58**, `sketchfab`: if no identifier looks like a missing value. -/
theorem C58_sketchfab_partial [One R] (isNa : K → Bool) (table : List (K × K)) (hne : table ≠ [])
    (hna : ∀ r ∈ table, isNa r.1 = false ∧ isNa r.2 = false) :
    ∃ file items users rows cols, generateSketchfab (R := R) isNa table = .ok file ∧
      getSketchfab file = .ok (items.map .bytes, users.map .bytes, rows, cols) ∧
      Describes (table.map fun r => (r.2, r.1, (1 : R))) items users rows cols := by
  obtain ⟨t, rows, cols, h1, h2, hd⟩ := codedCsr_ok (table.map fun r => (r.2, r.1, (1 : R))) (by simpa using hne)
  have hdata := parse_all true isNa (fun r : K × K => r.2) (fun r => r.1) (fun _ => (1 : R)) table
    (Or.inr fun r hr => (hna r hr).symm)
  refine ⟨⟨[("item_user_likes", t)], [("item", column1 (categoriesOf ((table.map fun r => (r.2, r.1, (1 : R))).map fun r => some r.1))),
    ("user", column1 (categoriesOf ((table.map fun r => (r.2, r.1, (1 : R))).map fun r => some r.2.1)))]⟩, _, _, rows, cols, ?_, ?_, hd⟩
  · unfold generateSketchfab
    simp only [hdata, h1, names_fst, names_snd]
    rfl
  · rw [getSketchfab_eq, h2]
    rfl

/-! ## Reddit -/

/-- **C58**, `reddit`: if no identifier looks like a missing value; the names are not stored. -/
theorem C58_reddit_partial (isNa : K → Bool) (table : List (K × K × R)) (hne : table ≠ [])
    (hna : ∀ r ∈ table, isNa r.1 = false ∧ isNa r.2.1 = false) :
    ∃ file items users rows cols, generateReddit isNa table = .ok file ∧ getReddit file = .ok (rows, cols) ∧
      Describes (table.map fun r => (r.2.1, r.1, r.2.2)) items users rows cols := by
  obtain ⟨t, rows, cols, h1, h2, hd⟩ := codedCsr_ok (table.map fun r => (r.2.1, r.1, r.2.2)) (by simpa using hne)
  have hdata := parse_all true isNa (fun r : K × K × R => r.2.1) (fun r => r.1) (fun r => r.2.2) table
    (Or.inr fun r hr => (hna r hr).symm)
  refine ⟨⟨[("item_user_ratings", t)], []⟩, _, _, rows, cols, ?_, h2, hd⟩
  unfold generateReddit
  simp only [hdata, h1]
  rfl

/-! ## Last.fm -/

theorem getLastfm_eq (t : CsrTriple R) (artists users : List K) :
    getLastfm ⟨[("artist_user_plays", t)], [("artist", column1 artists), ("user", column1 users)]⟩ =
      (csrMatrix t).map fun m => (artists.map .text, users.map .text, m) := by
  have : getLastfm ⟨[("artist_user_plays", t)], [("artist", column1 artists), ("user", column1 users)]⟩ =
      (csrMatrix t).map fun m => ((column1 artists).flatten.map .text, (column1 users).flatten.map .text, m) := by
    show (csrMatrix t).bind _ = _
    cases csrMatrix t <;> rfl
  rw [this, flatten_column1, flatten_column1]

/-- **C58**, `lastfm`: every table that is not empty, also with names such as `NA`; but the rows are the users.  Partial: the
file calls the matrix `artist_user_plays`. -/
theorem C58_lastfm_partial (isNa : K → Bool) (table : List (K × K × R)) (hne : table ≠ []) :
    ∃ file artists users rows cols, generateLastfm isNa table = .ok file ∧
      getLastfm file = .ok (artists.map .text, users.map .text, rows, cols) ∧
      Describes (table.map fun r => (r.1, r.2.1, r.2.2)) users artists rows cols := by
  obtain ⟨t, rows, cols, h1, h2, hd⟩ := codedCsr_ok (table.map fun r => (r.1, r.2.1, r.2.2)) (by simpa using hne)
  have hdata := parse_all false isNa (fun r : K × K × R => r.1) (fun r => r.2.1) (fun r => r.2.2) table (Or.inl rfl)
  refine ⟨⟨[("artist_user_plays", t)], [("artist", column1 (categoriesOf ((table.map fun r => (r.1, r.2.1, r.2.2)).map fun r => some r.2.1))),
    ("user", column1 (categoriesOf ((table.map fun r => (r.1, r.2.1, r.2.2)).map fun r => some r.1)))]⟩, _, _, rows, cols, ?_, ?_, hd⟩
  · unfold generateLastfm
    simp only [hdata, h1, names_fst, names_snd]
    rfl
  · rw [getLastfm_eq, h2]
    rfl

theorem namesOf_unique {I : Type} [LinearOrder I] {keys a b : List I} (ha : NamesOf keys a) (hb : NamesOf keys b) :
    a = b := by
  refine List.Perm.eq_of_pairwise (fun x y _ _ h1 h2 => absurd (h1.trans h2) (lt_irrefl _)) ha.sorted hb.sorted ?_
  refine (List.perm_ext_iff_of_nodup (ha.sorted.imp fun h => h.ne) (hb.sorted.imp fun h => h.ne)).mpr fun i => ?_
  rw [ha.mem, hb.mem]

/-- **C58**, violated: the matrix stored as `artist_user_plays` and returned with the artists first has a row per
user; it is never the artist/user matrix of a table with different numbers of artists and users. -/
theorem C58_lastfm_orientation_violated (isNa : K → Bool) (table : List (K × K × R)) (hne : table ≠ [])
    {artists users : List K} (ha : NamesOf (table.map fun r => r.2.1) artists)
    (hu : NamesOf (table.map fun r => r.1) users) (hdiff : artists.length ≠ users.length) :
    ∃ file rows cols, generateLastfm isNa table = .ok file ∧
      getLastfm file = .ok (artists.map .text, users.map .text, rows, cols) ∧
      ¬ Describes (table.map fun r => (r.2.1, r.1, r.2.2)) artists users rows cols := by
  obtain ⟨file, artists', users', rows, cols, h1, h2, hd⟩ := C58_lastfm_partial isNa table hne
  have e1 : artists' = artists := namesOf_unique hd.userNames (by simpa [Function.comp_def] using ha)
  have e2 : users' = users := namesOf_unique hd.itemNames (by simpa [Function.comp_def] using hu)
  subst e1 e2
  refine ⟨file, rows, cols, h1, h2, fun h => hdiff ?_⟩
  rw [← h.rowCount, hd.rowCount]

/-! ## Million song dataset -/

theorem joinSummary_eq (blank : K) (tracks : List K) (songs : List (MsdSong K)) :
    joinSummary blank tracks songs =
      (fillList (fun song : MsdSong K => if song 17 ∈ tracks then
        some (tracks.idxOf (song 17), some [song 17, song 9, song 14, song 18]) else none) songs
        (List.replicate tracks.length none)).map fun r => r.getD [blank, blank, blank, blank] := by
  unfold joinSummary fillList
  congr 2
  funext info song
  by_cases h : song 17 ∈ tracks <;> simp [h]

/-- The information on a track: the last song of the summary with its identifier, or nothing. -/
theorem joinSummary_spec (blank : K) {tracks : List K} (hnd : tracks.Nodup) (songs : List (MsdSong K)) (a : Nat) (k : K)
    (ha : tracks[a]? = some k) :
    (∀ pre song post, songs = pre ++ song :: post → song 17 = k → (∀ s ∈ post, s 17 ≠ k) →
      (joinSummary blank tracks songs)[a]? = some [k, song 9, song 14, song 18]) ∧
    ((∀ s ∈ songs, s 17 ≠ k) → (joinSummary blank tracks songs)[a]? = some [blank, blank, blank, blank]) := by
  obtain ⟨hal, hak⟩ := List.getElem?_eq_some_iff.mp ha
  have hk : k ∈ tracks := List.mem_of_getElem? ha
  have hidx : ∀ x ∈ tracks, tracks.idxOf x = a ↔ x = k := by
    intro x hx
    have hl := List.idxOf_lt_length_of_mem hx
    constructor
    · intro h
      have h1 := List.getElem_idxOf hl
      simp only [h] at h1
      rw [← h1, hak]
    · rintro rfl
      rw [← hak]
      exact hnd.idxOf_getElem a hal
  have hnone : ∀ l : List (MsdSong K), (∀ s ∈ l, s 17 ≠ k) → ∀ s ∈ l, ∀ b : Option (List K),
      (if s 17 ∈ tracks then some (tracks.idxOf (s 17), some [s 17, s 9, s 14, s 18]) else none) ≠ some (a, b) := by
    intro l hl s hs b h
    by_cases hm : s 17 ∈ tracks
    · rw [if_pos hm] at h
      injection h with h
      injection h with h _
      exact hl s hs ((hidx _ hm).mp h)
    · rw [if_neg hm] at h
      cases h
  constructor
  · rintro pre song post rfl hs hpost
    rw [joinSummary_eq, List.getElem?_map,
      fillList_last (b := some [k, song 9, song 14, song 18]) _ pre post song _ a (by simpa using hal) (by
        rw [hs, if_pos hk, (hidx k hk).mpr rfl]) (hnone post hpost)]
    rfl
  · intro hs
    rw [joinSummary_eq, List.getElem?_map, fillList_none _ _ _ _ (hnone songs hs),
      List.getElem?_replicate_of_lt hal]
    rfl

theorem getMsd_eq (t : CsrTriple R) (tracks : List (List K)) (users : List K) :
    getMsd ⟨[("track_user_plays", t)], [("track", tracks), ("user", column1 users)]⟩ =
      (csrMatrix t).map fun m => (tracks.map fun row => row.map .bytes, users.map .bytes, m) := by
  have : getMsd ⟨[("track_user_plays", t)], [("track", tracks), ("user", column1 users)]⟩ =
      (csrMatrix t).map fun m => (tracks.map fun row => row.map .bytes, (column1 users).flatten.map .bytes, m) := by
    show (csrMatrix t).bind _ = _
    cases csrMatrix t <;> rfl
  rw [this, flatten_column1]

/-- **C58**, million song dataset: with the triplets in `train_triplets.txt`, a numpy that has `np.object`, no identifier
that looks like a missing value, and every track in the summary, row `a` of the track information is
`(trackid, artist, album, song name)` of the track of row `a` of the matrix. -/
theorem C58_msd_partial (isNa : K → Bool) (blank : K) (files : String → Option (List (K × K × R)))
    (songs : List (MsdSong K)) (filename : String) (table : List (K × K × R))
    (hfile : files "train_triplets.txt" = some table) (hne : table ≠ [])
    (hna : ∀ r ∈ table, isNa r.1 = false ∧ isNa r.2.1 = false) :
    ∃ file, ∃ tracks : List K, ∃ info : List (List K), ∃ users rows cols, generateMsd true isNa blank files songs filename = .ok file ∧
      getMsd file = .ok (info.map fun row => row.map .bytes, users.map .bytes, rows, cols) ∧
      Describes (table.map fun r => (r.2.1, r.1, r.2.2)) tracks users rows cols ∧
      info.length = tracks.length ∧
      ∀ (a : Nat) k, tracks[a]? = some k → ∀ pre song post, songs = pre ++ song :: post → song 17 = k →
        (∀ s ∈ post, s 17 ≠ k) → info[a]? = some [k, song 9, song 14, song 18] := by
  obtain ⟨t, rows, cols, h1, h2, hd⟩ := codedCsr_ok (table.map fun r => (r.2.1, r.1, r.2.2)) (by simpa using hne)
  have hdata := parse_all true isNa (fun r : K × K × R => r.2.1) (fun r => r.1) (fun r => r.2.2) table
    (Or.inr fun r hr => (hna r hr).symm)
  refine ⟨⟨[("track_user_plays", t)], [("track", joinSummary blank (categoriesOf ((table.map fun r => (r.2.1, r.1, r.2.2)).map fun r => some r.1)) songs),
    ("user", column1 (categoriesOf ((table.map fun r => (r.2.1, r.1, r.2.2)).map fun r => some r.2.1)))]⟩, _,
    joinSummary blank (categoriesOf ((table.map fun r => (r.2.1, r.1, r.2.2)).map fun r => some r.1)) songs, _, rows, cols, ?_, ?_, hd, ?_, ?_⟩
  · unfold generateMsd
    simp only [hfile, pure_bind, hdata, names_fst, names_snd, h1]
    rfl
  · rw [getMsd_eq, h2]
    rfl
  · rw [joinSummary_eq, List.length_map, fillList_length, List.length_replicate]
  · intro a k ha pre song post hs hk hpost
    exact (joinSummary_spec blank (nodup_categoriesOf _) songs a k ha).1 pre song post hs hk hpost

/-- **C58**, violated: a file given as `triplets_filename` is not read; without `train_triplets.txt` the call fails. -/
theorem C58_msd_filename_violated (npObject : Bool) (isNa : K → Bool) (blank : K)
    (files : String → Option (List (K × K × R))) (songs : List (MsdSong K)) (filename : String)
    (h : files "train_triplets.txt" = none) :
    generateMsd npObject isNa blank files songs filename = .error .fileNotFound := by
  unfold generateMsd
  rw [h]
  rfl

/-- **C58**, violated: a track that is not in the summary has a row without its identifier. -/
theorem C58_msd_track_violated (isNa : K → Bool) (blank : K) (files : String → Option (List (K × K × R)))
    (songs : List (MsdSong K)) (filename : String) (table : List (K × K × R))
    (hfile : files "train_triplets.txt" = some table)
    (hna : ∀ r ∈ table, isNa r.1 = false ∧ isNa r.2.1 = false)
    (r : K × K × R) (hr : r ∈ table) (hs : ∀ s ∈ songs, s 17 ≠ r.2.1) :
    ∃ file, ∃ tracks : List K, ∃ info : List (List K), ∃ users rows cols, ∃ a : Nat,
      generateMsd true isNa blank files songs filename = .ok file ∧
      getMsd file = .ok (info.map fun row => row.map .bytes, users.map .bytes, rows, cols) ∧
      Describes (table.map fun r => (r.2.1, r.1, r.2.2)) tracks users rows cols ∧
      tracks[a]? = some r.2.1 ∧ info[a]? = some [blank, blank, blank, blank] := by
  have hne : table ≠ [] := List.ne_nil_of_mem hr
  obtain ⟨t, rows, cols, h1, h2, hd⟩ := codedCsr_ok (table.map fun r => (r.2.1, r.1, r.2.2)) (by simpa using hne)
  have hdata := parse_all true isNa (fun r : K × K × R => r.2.1) (fun r => r.1) (fun r => r.2.2) table
    (Or.inr fun r hr => (hna r hr).symm)
  have hmem := (hd.itemNames.mem r.2.1).mpr (List.mem_map.mpr ⟨_, List.mem_map.mpr ⟨r, hr, rfl⟩, rfl⟩)
  obtain ⟨a, ha⟩ := List.mem_iff_getElem?.mp hmem
  refine ⟨⟨[("track_user_plays", t)], [("track", joinSummary blank (categoriesOf ((table.map fun r => (r.2.1, r.1, r.2.2)).map fun r => some r.1)) songs),
    ("user", column1 (categoriesOf ((table.map fun r => (r.2.1, r.1, r.2.2)).map fun r => some r.2.1)))]⟩, _,
    joinSummary blank (categoriesOf ((table.map fun r => (r.2.1, r.1, r.2.2)).map fun r => some r.1)) songs, _, rows, cols, a, ?_, ?_, hd, ha, ?_⟩
  · unfold generateMsd
    simp only [hfile, pure_bind, hdata, names_fst, names_snd, h1]
    rfl
  · rw [getMsd_eq, h2]
    rfl
  · exact (joinSummary_spec blank (nodup_categoriesOf _) songs a _ ha).2 hs

/-! ## Movielens -/

omit [LinearOrder K] in
theorem movieTitles_eq (blank : K) (movies : List (Nat × K)) :
    movieTitles blank movies = (fillList (fun m : Nat × K => some (m.1, some m.2)) movies
      (List.replicate ((movies.map Prod.fst).foldl max 0 + 1) none)).map fun t => t.getD blank := rfl

omit [LinearOrder K] in
theorem getMovielens_eq (t : CsrTriple R) (titles : List K) :
    getMovielens ⟨[("movie_user_ratings", t)], [("movie", column1 titles)]⟩ =
      (csrMatrix t).map fun m => (titles.map .text, m) := by
  have : getMovielens ⟨[("movie_user_ratings", t)], [("movie", column1 titles)]⟩ =
      (csrMatrix t).map fun m => ((column1 titles).flatten.map .text, m) := by
    show (csrMatrix t).bind _ = _
    cases csrMatrix t <;> rfl
  rw [this, flatten_column1]

omit [LinearOrder K] in
/-- **C58**, `movielens`: with a numpy that has `np.object`, the matrix has the movie identifiers as rows and the user
identifiers as columns, and the titles are at the movie identifiers (the last title given for a movie). -/
theorem C58_movielens_partial (blank : K) (ratings : List (Nat × Nat × R)) (movies : List (Nat × K))
    (hr : ratings ≠ []) (hm : movies ≠ []) (disk : Option (H5File R K)) :
    ∃ file, ∃ titles : List K, ∃ rows cols, generateMovielens true blank ratings movies disk = (some file, .ok ()) ∧
      getMovielens file = .ok (titles.map .text, rows, cols) ∧
      MatrixOf (ratings.map fun r => (r.2.1, r.1, r.2.2)) rows cols ∧
      (∀ m ∈ movies, m.1 < titles.length) ∧
      (∀ pre m post, movies = pre ++ m :: post → (∀ m' ∈ post, m'.1 ≠ m.1) → titles[m.1]? = some m.2) ∧
      (∀ a : Nat, a < titles.length → (∀ m ∈ movies, m.1 ≠ a) → titles[a]? = some blank) := by
  obtain ⟨t, rows, cols, h1, h2, hd⟩ := dsToCsr_ok (ratings.map fun r => ((r.2.1 : Int), (r.1 : Int), r.2.2))
    (by simpa using hr) (by
      intro e he
      obtain ⟨r, _, rfl⟩ := List.mem_map.mp he
      exact ⟨Int.natCast_nonneg _, Int.natCast_nonneg _⟩)
  have hlen : (movieTitles blank movies).length = (movies.map Prod.fst).foldl max 0 + 1 := by
    rw [movieTitles_eq, List.length_map, fillList_length, List.length_replicate]
  have hin : ∀ m ∈ movies, m.1 < (movies.map Prod.fst).foldl max 0 + 1 := by
    intro m hm
    have := (foldl_max_spec (movies.map Prod.fst) 0).1 m.1 (List.mem_map.mpr ⟨m, hm, rfl⟩)
    omega
  refine ⟨⟨[("movie_user_ratings", t)], [("movie", column1 (movieTitles blank movies))]⟩,
    movieTitles blank movies, rows, cols, ?_, ?_, ?_, ?_, ?_, ?_⟩
  · unfold generateMovielens
    rw [h1]
    simp only
    rw [if_neg (by simp), if_neg (by simpa using hm)]
  · rw [getMovielens_eq, h2]
    rfl
  · rw [List.map_map] at hd
    exact hd
  · intro m hm
    rw [hlen]
    exact hin m hm
  · rintro pre m post rfl hpost
    rw [movieTitles_eq, List.getElem?_map, fillList_last (b := some m.2) _ pre post m _ m.1 (by
      rw [List.length_replicate]; exact hin m (by simp)) rfl (by
        intro y hy b' h
        injection h with h
        injection h with h _
        exact hpost y hy h)]
    rfl
  · intro a ha hno
    rw [hlen] at ha
    rw [movieTitles_eq, List.getElem?_map, fillList_none _ _ _ _ (by
      intro y hy b' h
      injection h with h
      injection h with h _
      exact hno y hy h), List.getElem?_replicate_of_lt ha]
    rfl

omit [LinearOrder K] in
/-- **C58**, violated: with numpy 1.24 or later the generator fails after it has written a part of the file, whatever was
there before; the file it leaves cannot be read. -/
theorem C58_movielens_object_violated (blank : K) (ratings : List (Nat × Nat × R)) (movies : List (Nat × K))
    (hr : ratings ≠ []) (disk : Option (H5File R K)) :
    ∃ file, generateMovielens false blank ratings movies disk = (some file, .error .attributeError) ∧
      getMovielens file = .error .indexError := by
  obtain ⟨t, rows, cols, h1, h2, _⟩ := dsToCsr_ok (ratings.map fun r => ((r.2.1 : Int), (r.1 : Int), r.2.2))
    (by simpa using hr) (by
      intro e he
      obtain ⟨r, _, rfl⟩ := List.mem_map.mp he
      exact ⟨Int.natCast_nonneg _, Int.natCast_nonneg _⟩)
  refine ⟨⟨[("movie_user_ratings", t)], []⟩, ?_, ?_⟩
  · unfold generateMovielens
    rw [h1]
    rfl
  · show (csrMatrix t).bind _ = _
    rw [h2]
    rfl

/-! ## Missing values and empty tables -/

/-- **C58**, violated: a single user or item whose identifier pandas takes for a missing value (`NA`, `null`, `nan`, ...) makes
the sketchfab, reddit and million song generators fail. -/
theorem C58_missing_violated [One R] (isNa : K → Bool) (blank : K) (songs : List (MsdSong K)) (filename : String)
    (table : List (K × K × R)) (r : K × K × R) (hr : r ∈ table) (h : isNa r.1 = true ∨ isNa r.2.1 = true)
    (files : String → Option (List (K × K × R))) (hf : files "train_triplets.txt" = some table) :
    generateSketchfab (R := R) isNa (table.map fun r => (r.1, r.2.1)) = .error .valueError ∧
      generateReddit isNa table = .error .valueError ∧
      generateMsd true isNa blank files songs filename = .error .valueError := by
  have hp : parseId true isNa r.2.1 = none ∨ parseId true isNa r.1 = none := by
    rcases h with h | h
    · right; simp [parseId, h]
    · left; simp [parseId, h]
  refine ⟨?_, ?_, ?_⟩
  · unfold generateSketchfab
    simp only
    rw [codedCsr_error]
    · rfl
    · refine Or.inr ⟨_, List.mem_map.mpr ⟨(r.1, r.2.1), List.mem_map.mpr ⟨r, hr, rfl⟩, rfl⟩, hp⟩
  · unfold generateReddit
    simp only
    rw [codedCsr_error]
    · rfl
    · exact Or.inr ⟨_, List.mem_map.mpr ⟨r, hr, rfl⟩, hp⟩
  · unfold generateMsd
    rw [hf]
    simp only [pure_bind]
    rw [codedCsr_error]
    · rfl
    · exact Or.inr ⟨_, List.mem_map.mpr ⟨r, hr, rfl⟩, hp⟩

/-- Without records there is no file. -/
theorem C58_empty (isNa : K → Bool) (npObject : Bool) (blank : K) (movies : List (Nat × K)) (disk : Option (H5File R K)) :
    generateLastfm (R := R) isNa [] = .error .valueError ∧ generateReddit (R := R) isNa [] = .error .valueError ∧
      generateMovielens npObject blank [] movies disk = (disk, .error .valueError) := ⟨rfl, rfl, rfl⟩

omit [AddCommMonoid R] [LinearOrder K] in
/-- A file without the matrix of a dataset cannot be read as that dataset. -/
theorem C58_missing_group (file : H5File R K) :
    (file.groups.lookup "artist_user_plays" = none → getLastfm file = .error .attributeError) ∧
      (file.groups.lookup "item_user_ratings" = none → getReddit file = .error .attributeError) ∧
      (file.groups.lookup "item_user_likes" = none → getSketchfab file = .error .attributeError) ∧
      (file.groups.lookup "track_user_plays" = none → getMsd file = .error .attributeError) ∧
      (file.groups.lookup "movie_user_ratings" = none → getMovielens file = .error .attributeError) := by
  refine ⟨fun h => ?_, fun h => ?_, fun h => ?_, fun h => ?_, fun h => ?_⟩ <;>
    simp only [getLastfm, getReddit, getSketchfab, getMsd, getMovielens, readGroup, h] <;> rfl

omit [AddCommMonoid R] [LinearOrder K] in
/-- Nor can a file without the names: a reader that returns has found all that it returns. -/
theorem C58_missing_names (file : H5File R K) :
    (file.sets.lookup "artist" = none ∨ file.sets.lookup "user" = none → ∀ out, getLastfm file ≠ .ok out) ∧
      (file.sets.lookup "item" = none ∨ file.sets.lookup "user" = none → ∀ out, getSketchfab file ≠ .ok out) ∧
      (file.sets.lookup "track" = none ∨ file.sets.lookup "user" = none → ∀ out, getMsd file ≠ .ok out) ∧
      (file.sets.lookup "movie" = none → ∀ out, getMovielens file ≠ .ok out) := by
  have two : ∀ {A B : Type} (first : Except Err A) (a b : String) (k : A → List (List K) → List (List K) → B),
      file.sets.lookup a = none ∨ file.sets.lookup b = none →
      ∀ out, (do
        let x ← first
        let y ← readSet file a
        let z ← readSet file b
        pure (k x y z)) ≠ Except.ok out := by
    intro A B first a b k h out e
    cases first with
    | error _ => cases e
    | ok x =>
      cases ha : file.sets.lookup a with
      | none => simp [readSet, ha, bind, Except.bind] at e
      | some y =>
        have hb : file.sets.lookup b = none := by simpa [ha] using h
        simp [readSet, ha, hb, bind, Except.bind] at e
  refine ⟨fun h => two _ _ _ _ h, fun h => two _ _ _ _ h, fun h => two _ _ _ _ h, fun h out e => ?_⟩
  unfold getMovielens at e
  cases hg : readGroup file "movie_user_ratings" with
  | error _ => simp [hg, bind, Except.bind] at e
  | ok x => simp [hg, readSet, h, bind, Except.bind] at e

/-! ## Examples -/

/-- Two users, three items, one repeated pair. -/
def sampleTable : List (String × String × Rat) :=
  [("u2", "b", 3), ("u1", "c", 5), ("u2", "b", 4), ("u1", "a", 1)]

set_option synthInstance.maxSize 512 in
set_option synthInstance.maxHeartbeats 200000 in
/-- The file of one dataset read as another. -/
example : (generateReddit (fun _ => false) sampleTable).bind getLastfm = .error .attributeError := by decide +kernel

set_option synthInstance.maxSize 512 in
set_option synthInstance.maxHeartbeats 200000 in
/-- The matrix is there, the names are not. -/
example : ((generateLastfm (fun _ => false) sampleTable).map fun f =>
      (⟨f.groups, []⟩ : H5File Rat String)).bind getLastfm =
    .error .indexError := by decide +kernel

example : (generateReddit (fun _ => false) sampleTable).bind getReddit =
    .ok ([[(0, 1)], [(1, 7)], [(0, 5)]], 2) := by decide +kernel

set_option synthInstance.maxSize 512 in
set_option synthInstance.maxHeartbeats 200000 in
example : (generateLastfm (fun _ => false) sampleTable).bind getLastfm =
    .ok ([.text "a", .text "b", .text "c"], [.text "u1", .text "u2"], [[(0, 1), (2, 5)], [(1, 7)]], 3) := by
  decide +kernel

set_option synthInstance.maxSize 512 in
set_option synthInstance.maxHeartbeats 200000 in
example : (generateSketchfab (R := Rat) (fun _ => false) [("u2", "b"), ("u1", "c"), ("u2", "b")]).bind getSketchfab =
    .ok ([.bytes "b", .bytes "c"], [.bytes "u1", .bytes "u2"], [[(1, 2)], [(0, 1)]], 2) := by
  decide +kernel

example : NamesOf (sampleTable.map fun r => r.2.1) ["a", "b", "c"] ∧ NamesOf (sampleTable.map fun r => r.1) ["u1", "u2"] :=
  ⟨⟨by decide +kernel, by intro i; simp [sampleTable]; tauto⟩,
    ⟨by decide +kernel, by intro i; simp [sampleTable]; tauto⟩⟩

/-- Movies 0 and 2 have titles, the ratings are of movies 1 and 3. -/
example : (match generateMovielens true "" [(1, 3, (4 : Rat)), (0, 1, 2)] [(2, "two"), (0, "zero"), (2, "2")] none with
    | (some f, .ok _) => getMovielens f
    | _ => .error .runtimeError) =
    .ok ([.text "zero", .text "", .text "2"], [[], [(0, 2)], [], [(1, 4)]], 2) := by decide +kernel

end Implicit
