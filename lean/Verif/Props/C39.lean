import Verif.Spec.Persist
import Mathlib.Tactic.Linarith

/-!
# C39 — Saving then loading restores the model
-/

set_option linter.unusedSectionVars false

namespace Implicit

open Spec

variable {R : Type}

theorem loadEntry_plain (o : PyObj R) (k : Attr) (hk : k ≠ .dtype) (v : PyVal R) (hv : Plain v) :
    loadEntry o (k, asAnyArray v) = .ok (setAttr o k v) := by
  cases v <;> simp only [Plain] at hv
  · rw [asAnyArray, if_pos hv]; simp [loadEntry, hk]
  all_goals simp [asAnyArray, loadEntry, hk]

theorem saveEntry_plain (o : PyObj R) (k : Attr) (hk : k ≠ .dtype) (v : PyVal R) (hv : Plain v)
    (h : o k = some v) : saveEntry o k = .ok (some (k, asAnyArray v)) := by
  unfold saveEntry
  rw [h]
  simp only [if_neg hk]
  cases v <;> simp only [Plain] at hv <;> rfl

open scoped Classical in
/-- Saving some keys and loading them into an object. -/
theorem save_load_keys (keys : List Attr) (o : PyObj R) (ho : MfState keys o) (init : PyObj R) :
    ∃ args, keys.mapM (saveEntry o) = .ok args ∧
      ∃ o', (args.filterMap id).foldlM loadEntry init = Except.ok o' ∧
        ∀ k, o' k = if k ∈ keys ∧ o k ≠ some .none then o k else init k := by
  induction keys generalizing init with
  | nil => exact ⟨[], rfl, init, rfl, by simp⟩
  | cons k ks ih =>
    have hks : MfState ks o := fun k' hk' => ho k' (by simp [hk'])
    have hk := ho k (by simp)
    -- the entry of `k`
    have entry : (∃ e, saveEntry o k = .ok (some e) ∧ ∃ v, o k = some v ∧ v ≠ .none ∧
          ∀ i : PyObj R, loadEntry i e = .ok (setAttr i k v)) ∨
        (saveEntry o k = .ok none ∧ o k = some .none) := by
      by_cases hd : k = .dtype
      · rw [if_pos hd] at hk
        obtain ⟨n, hn⟩ := hk
        refine Or.inl ⟨(k, .text n), ?_, .dtype n, hn, by simp, fun i => ?_⟩
        · unfold saveEntry; rw [hn]; simp [hd]
        · simp [loadEntry, hd]
      · rw [if_neg hd] at hk
        rcases hk with ⟨v, hv, hp⟩ | ⟨_, hn⟩
        · refine Or.inl ⟨_, saveEntry_plain o k hd v hp hv, v, hv, ?_, fun i => loadEntry_plain i k hd v hp⟩
          rintro rfl; exact hp
        · refine Or.inr ⟨?_, hn⟩
          unfold saveEntry; rw [hn]; simp [hd]
    rcases entry with ⟨e, hs, v, hv, hvn, hl⟩ | ⟨hs, hn⟩
    · obtain ⟨args, ha, o', ho', hspec⟩ := ih hks (setAttr init k v)
      refine ⟨some e :: args, ?_, o', ?_, fun k' => ?_⟩
      · rw [List.mapM_cons, hs, ha]; rfl
      · show ((e :: args.filterMap id).foldlM loadEntry init) = _
        rw [List.foldlM_cons, hl init]
        exact ho'
      · rw [hspec k']
        by_cases h1 : k' ∈ ks ∧ o k' ≠ some .none
        · rw [if_pos h1, if_pos ⟨by simp [h1.1], h1.2⟩]
        · rw [if_neg h1]
          by_cases h2 : k' = k
          · subst h2
            rw [if_pos ⟨by simp, by rw [hv]; simpa using hvn⟩, hv]
            simp [setAttr]
          · have h3 : ¬ (k' ∈ k :: ks ∧ o k' ≠ some .none) := by
              rintro ⟨hm, hne⟩
              rcases List.mem_cons.mp hm with h | h
              · exact h2 h
              · exact h1 ⟨h, hne⟩
            rw [if_neg h3]
            simp [setAttr, h2]
    · obtain ⟨args, ha, o', ho', hspec⟩ := ih hks init
      refine ⟨none :: args, ?_, o', ho', fun k' => ?_⟩
      · rw [List.mapM_cons, hs, ha]; rfl
      · rw [hspec k']
        by_cases h1 : k' ∈ ks ∧ o k' ≠ some .none
        · rw [if_pos h1, if_pos ⟨by simp [h1.1], h1.2⟩]
        · rw [if_neg h1]
          have h3 : ¬ (k' ∈ k :: ks ∧ o k' ≠ some .none) := by
            rintro ⟨hm, hne⟩
            rcases List.mem_cons.mp hm with h | h
            · subst h; exact hne hn
            · exact h1 ⟨h, hne⟩
          rw [if_neg h3]

/-- The name read by `load` is the name written by `save` — for every `str`, and for a `pathlib` path ending
in `.npz`. -/
def Findable : Target → Prop
  | .str _ => True
  | .pathlib s => npzSuffix <:+ s

theorem loadName_eq (t : Target) (ht : Findable t) : loadName t = savezName t := by
  cases t with
  | str s => rfl
  | pathlib s =>
    have : npzSuffix.isSuffixOf s = true := List.isSuffixOf_iff_suffix.mpr ht
    simp [loadName, savezName, this]

open scoped Classical in
/-- Generic round trip. -/
theorem mf_round_trip (keys : List Attr) (o init : PyObj R) (ho : MfState keys o) (t : Target)
    (ht : Findable t) (disk : Disk (List (Attr × NpVal R)))
    (hinit : ∀ k ∈ [Attr.userFactors, .itemFactors, .randomState], init k = some .none) :
    ∃ disk', mfSave keys o t disk = .ok disk' ∧
      (∀ name, name ≠ savezName t → disk' name = disk name) ∧
      ∃ o', mfLoad init t disk' = .ok o' ∧ SameOn keys o o' ∧ ∀ k, k ∉ keys → o' k = init k := by
  obtain ⟨args, ha, o', ho', hspec⟩ := save_load_keys keys o ho init
  refine ⟨disk.write (savezName t) (args.filterMap id), ?_, ?_, o', ?_, ?_, ?_⟩
  · unfold mfSave
    rw [ha]
    rfl
  · intro name hn
    simp [Disk.write, hn]
  · unfold mfLoad
    rw [loadName_eq t ht]
    simp only [Disk.write, if_pos]
    exact ho'
  · intro k hk
    rw [hspec k]
    by_cases h : o k = some .none
    · rw [if_neg (by simp [h])]
      have := ho k hk
      by_cases hd : k = .dtype
      · rw [if_pos hd] at this
        obtain ⟨n, hn⟩ := this
        rw [hn] at h; cases h
      · rw [if_neg hd] at this
        rcases this with ⟨v, hv, hp⟩ | ⟨hk', _⟩
        · rw [hv] at h; cases h; exact hp.elim
        · rw [h]; exact hinit k (by simp; tauto)
    · rw [if_pos ⟨hk, h⟩]
  · intro k hk
    rw [hspec k, if_neg (by simp [hk])]

/-- **ALS, CPU.** -/
theorem C39_als_partial (c : Consts R) (o : PyObj R) (ho : MfState alsKeys o) (t : Target)
    (ht : Findable t) (disk : Disk (List (Attr × NpVal R))) :
    ∃ disk', mfSave alsKeys o t disk = .ok disk' ∧
      (∀ name, name ≠ savezName t → disk' name = disk name) ∧
      ∃ o', mfLoad (alsDefault c) t disk' = .ok o' ∧ SameOn (.cgSteps :: alsAttrs) o o' := by
  obtain ⟨d, h1, h2, o', h3, h4, _⟩ := mf_round_trip alsKeys o (alsDefault c) ho t ht disk
    (by intro k hk; simp only [List.mem_cons, List.not_mem_nil, or_false] at hk
        rcases hk with rfl | rfl | rfl <;> rfl)
  exact ⟨d, h1, h2, o', h3, fun k hk => h4 k (by revert k; decide)⟩

/-- **BPR, CPU.** -/
theorem C39_bpr_partial (c : Consts R) (o : PyObj R) (ho : MfState bprKeys o) (t : Target)
    (ht : Findable t) (disk : Disk (List (Attr × NpVal R))) :
    ∃ disk', mfSave bprKeys o t disk = .ok disk' ∧
      (∀ name, name ≠ savezName t → disk' name = disk name) ∧
      ∃ o', mfLoad (bprDefault c) t disk' = .ok o' ∧ SameOn bprAttrs o o' := by
  obtain ⟨d, h1, h2, o', h3, h4, _⟩ := mf_round_trip bprKeys o (bprDefault c) ho t ht disk
    (by intro k hk; simp only [List.mem_cons, List.not_mem_nil, or_false] at hk
        rcases hk with rfl | rfl | rfl <;> rfl)
  exact ⟨d, h1, h2, o', h3, fun k hk => h4 k (by revert k; decide)⟩

/-- **LMF.** -/
theorem C39_lmf_partial (c : Consts R) (o : PyObj R) (ho : MfState lmfKeys o) (t : Target)
    (ht : Findable t) (disk : Disk (List (Attr × NpVal R))) :
    ∃ disk', mfSave lmfKeys o t disk = .ok disk' ∧
      (∀ name, name ≠ savezName t → disk' name = disk name) ∧
      ∃ o', mfLoad (lmfDefault c) t disk' = .ok o' ∧ SameOn lmfAttrs o o' := by
  obtain ⟨d, h1, h2, o', h3, h4, _⟩ := mf_round_trip lmfKeys o (lmfDefault c) ho t ht disk
    (by intro k hk; simp only [List.mem_cons, List.not_mem_nil, or_false] at hk
        rcases hk with rfl | rfl | rfl <;> rfl)
  exact ⟨d, h1, h2, o', h3, fun k hk => h4 k (by revert k; decide)⟩

/-! ## Where it fails -/

/-- A float-free set of constants for the counter-examples. -/
def consts0 : Consts Rat := ⟨1 / 100, 1, 3 / 5, 6 / 5, 3 / 4⟩

/-- A `pathlib.Path` without the suffix: `save` succeeds, `load` does not find the file. -/
theorem C39_pathlib_violated (o : PyObj Rat) (ho : MfState alsKeys o) :
    ∃ disk', mfSave alsKeys o (.pathlib ['m']) (fun _ => none) = .ok disk' ∧
      mfLoad (alsDefault consts0) (.pathlib ['m']) disk' = .error .fileNotFound := by
  obtain ⟨args, ha, _⟩ := save_load_keys alsKeys o ho (alsDefault consts0)
  refine ⟨_, by unfold mfSave; rw [ha]; rfl, ?_⟩
  unfold mfLoad
  have h1 : loadName (.pathlib ['m']) = ['m'] := rfl
  have h2 : savezName (.pathlib ['m']) = ['m', '.', 'n', 'p', 'z'] := by decide
  rw [h1, h2]
  simp [Disk.write]

/-- A model whose `random_state` is a generator (documented) can be saved but not loaded. -/
theorem C39_generator_violated :
    let o := setAttr (alsDefault consts0) .randomState (.object 0)
    ∃ disk', mfSave alsKeys o (.str ['m']) (fun _ => none) = .ok disk' ∧
      mfLoad (alsDefault consts0) (.str ['m']) disk' = .error .valueError := by
  refine ⟨_, rfl, ?_⟩
  rfl

/-- So can one whose integer seed does not fit 64 bits (numpy accepts such seeds). -/
theorem C39_seed_violated :
    let o := setAttr (alsDefault consts0) .randomState (.int (2 ^ 64))
    ∃ disk', mfSave alsKeys o (.str ['m']) (fun _ => none) = .ok disk' ∧
      mfLoad (alsDefault consts0) (.str ['m']) disk' = .error .valueError := by
  refine ⟨_, rfl, ?_⟩
  rfl

/-! ## Item-item models -/

/-- The integer in `K`. -/
def intValue : Option (PyVal R) → Option Int
  | some (.int n) => some n
  | some (.array0 n) => some n
  | _ => none

/-- State of an item-item model: an integer `K`, the similarity matrix or `None`. -/
def SavableKnn (o : PyObj R) : Prop :=
  (intValue (o .K)).isSome ∧ (o .similarity = some .none ∨ ∃ m, o .similarity = some (.csr m))

/-- **Item-item models**: `K`, the similarity matrix and the scorer come back; every other attribute is the
default of the class. -/
theorem C39_knn_partial (o init : PyObj R) (ho : SavableKnn o) (t : Target) (ht : Findable t)
    (hinit : init .similarity = some .none ∧ init .scorer = some .none) (disk : Disk (KnnArchive R)) :
    ∃ disk', knnSave o t disk = .ok disk' ∧ ∃ o', knnLoad init t disk' = .ok o' ∧
      intValue (o' .K) = intValue (o .K) ∧ o' .similarity = o .similarity ∧
      (∀ m, o .similarity = some (.csr m) → o' .scorer = some (.scorerOf m)) ∧
      (o .similarity = some .none → o' .scorer = some .none) ∧
      ∀ k, k ∉ [Attr.K, .similarity, .scorer] → o' k = init k := by
  obtain ⟨hK, hs⟩ := ho
  have hload : ∀ (n : Int) (mm : Option (CsrArrays R)),
      knnLoad init t (disk.write (savezName t) ⟨n, mm⟩) = .ok
        (setAttr (match mm with
          | .none => init
          | some m => setAttr (setAttr init .similarity (.csr m)) .scorer (.scorerOf m)) .K (.array0 n)) := by
    intro n mm
    unfold knnLoad
    rw [loadName_eq t ht]
    simp only [Disk.write, if_pos]
    cases mm <;> rfl
  have hsave : ∃ n, intValue (o .K) = some n ∧ ∀ mm : Option (CsrArrays R),
      o .similarity = some (match mm with | .none => .none | some m => .csr m) →
      knnSave o t disk = .ok (disk.write (savezName t) ⟨n, mm⟩) := by
    unfold knnSave
    rcases hKo : o .K with _ | v
    · rw [hKo] at hK; simp [intValue] at hK
    · cases v <;> rw [hKo] at hK <;> simp [intValue] at hK
      all_goals
        refine ⟨_, rfl, fun mm hm => ?_⟩
        cases mm <;> rw [hm]
  obtain ⟨n, hn, hsave⟩ := hsave
  rcases hs with hs | ⟨m, hs⟩
  · refine ⟨_, hsave none hs, _, hload n none, ?_, ?_, ?_, ?_, ?_⟩
    · rw [hn]; simp [setAttr, intValue]
    · simp [setAttr, hs, hinit.1]
    · intro m hm; rw [hs] at hm; cases hm
    · simp [setAttr, hinit.2]
    · intro k hk
      simp only [List.mem_cons, List.not_mem_nil, or_false, not_or] at hk
      simp [setAttr, hk.1]
  · refine ⟨_, hsave (some m) hs, _, hload n (some m), ?_, ?_, ?_, ?_, ?_⟩
    · rw [hn]; simp [setAttr, intValue]
    · simp [setAttr, hs]
    · intro m' hm; rw [hs] at hm; cases hm; simp [setAttr]
    · intro hm; rw [hs] at hm; cases hm
    · intro k hk
      simp only [List.mem_cons, List.not_mem_nil, or_false, not_or] at hk
      simp [setAttr, hk.1, hk.2.1, hk.2.2]

/-- A BM25 model comes back with the default `K1`, `B` and `num_threads`. -/
theorem C39_bm25_violated :
    let o : PyObj Rat := bm25New (.int 20) (.float 100) (.float (4 / 5)) (.int 4)
    let init : PyObj Rat := bm25New (.int 20) (.float consts0.c12) (.float consts0.c075) (.int 0)
    ∃ disk' o', knnSave o (.str ['m']) (fun _ => none) = .ok disk' ∧
      knnLoad init (.str ['m']) disk' = .ok o' ∧
      o .K1 = some (.float 100) ∧ o' .K1 = some (.float (6 / 5)) ∧
      o .B = some (.float (4 / 5)) ∧ o' .B = some (.float (3 / 4)) ∧
      o .numThreads = some (.int 4) ∧ o' .numThreads = some (.int 0) := by
  refine ⟨_, _, rfl, rfl, rfl, ?_, rfl, ?_, rfl, rfl⟩ <;> rfl

/-- **Pickling** an item-item model loses nothing: every attribute is preserved and the scorer is rebuilt from
the similarity matrix. -/
theorem C39_knn_pickle (o : PyObj R)
    (h : (o .similarity = some .none ∧ o .scorer = some .none) ∨
      ∃ m, o .similarity = some (.csr m) ∧ o .scorer = some (.scorerOf m)) :
    ∃ s o', knnGetState o = .ok s ∧ s .scorer = none ∧ knnSetState s = .ok o' ∧ ∀ k, o' k = o k := by
  rcases h with ⟨hs, hc⟩ | ⟨m, hs, hc⟩
  · refine ⟨fun k => if k = .scorer then Option.none else o k,
      setAttr (fun k => if k = .scorer then Option.none else o k) .scorer .none, ?_, by simp, ?_, ?_⟩
    · unfold knnGetState; rw [hc]
    · unfold knnSetState; simp [hs]
    · intro k
      by_cases hk : k = .scorer
      · subst hk; simp [setAttr, hc]
      · simp [setAttr, hk]
  · refine ⟨fun k => if k = .scorer then Option.none else o k,
      setAttr (fun k => if k = .scorer then Option.none else o k) .scorer (.scorerOf m), ?_, by simp, ?_, ?_⟩
    · unfold knnGetState; rw [hc]
    · unfold knnSetState; simp [hs]
    · intro k
      by_cases hk : k = .scorer
      · subst hk; simp [setAttr, hc]
      · simp [setAttr, hk]

/-- A trained model meets the hypotheses. -/
example : MfState alsKeys (setAttr (setAttr (alsDefault consts0) .randomState (.int 42)) .userFactors
    (.array ⟨[1, 2], "float32", false, [1, 2]⟩)) := by
  intro k hk
  simp only [alsKeys, List.mem_cons, List.not_mem_nil, or_false] at hk
  rcases hk with rfl | rfl | rfl | rfl | rfl | rfl | rfl | rfl | rfl | rfl | rfl | rfl | rfl <;>
    simp [setAttr, alsDefault, alsNew, objOf, Plain]

end Implicit
