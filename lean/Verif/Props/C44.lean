import Verif.Model.Download
import Mathlib.Data.List.Induction
import Mathlib.Tactic.ByContra

/-!
# C44 — A crash during dataset download is never mistaken for a complete dataset
-/

namespace Implicit

variable {B D : Type}

/-- One call leaves an existing file alone, and otherwise leaves no file or a prefix of the content. -/
theorem getDataset_disk (parse : List B → Option D) (remote : Remote B) (t : Transfer) :
    (∀ bytes, (getDataset parse remote t (some bytes)).1 = some bytes) ∧
      ((getDataset parse remote t none).1 = none ∨
        ∃ k, (getDataset parse remote t none).1 = some (remote.content.take k)) := by
  refine ⟨fun bytes => rfl, ?_⟩
  cases t with
  | notOpened => exact Or.inl rfl
  | crash k => exact Or.inr ⟨k, rfl⟩
  | closed k =>
    refine Or.inr ⟨k, ?_⟩
    unfold getDataset downloadFile
    by_cases h : remote.announced = true ∧ k < remote.content.length
    · simp only [if_pos h]
    · simp only [if_neg h]
  | complete => exact Or.inr ⟨remote.content.length, by simp [getDataset, downloadFile]⟩

theorem cacheAfter_snoc (parse : List B → Option D) (remote : Remote B) (h : List Transfer) (t : Transfer) :
    cacheAfter parse remote (h ++ [t]) = (getDataset parse remote t (cacheAfter parse remote h)).1 := by
  unfold cacheAfter
  rw [List.foldl_append]
  rfl

/-- **The cache only ever holds a prefix of the remote content**, whatever the history. -/
theorem C44_prefix (parse : List B → Option D) (remote : Remote B) (history : List Transfer)
    (bytes : List B) (h : cacheAfter parse remote history = some bytes) : bytes <+: remote.content := by
  induction history using List.reverseRecOn generalizing bytes with
  | nil => cases h
  | append_singleton hs t ih =>
    rw [cacheAfter_snoc] at h
    rcases hc : cacheAfter parse remote hs with _ | b
    · rw [hc] at h
      rcases (getDataset_disk parse remote t).2 with h' | ⟨k, h'⟩
      · rw [h'] at h; cases h
      · rw [h'] at h
        cases h
        exact List.take_prefix k _
    · rw [hc, (getDataset_disk parse remote t).1] at h
      cases h
      exact ih _ hc

/-- **A returned dataset is complete, if the reader rejects truncated files**: the only check made is that of
the HDF5 library. -/
theorem C44_complete_partial (parse : List B → Option D) (remote : Remote B)
    (hparse : ∀ k, k < remote.content.length → parse (remote.content.take k) = none)
    (history : List Transfer) (t : Transfer) (d : D)
    (h : (getDataset parse remote t (cacheAfter parse remote history)).2 = .data d) :
    parse remote.content = some d ∧
      (getDataset parse remote t (cacheAfter parse remote history)).1 = some remote.content := by
  have key : ∀ disk : Option (List B), (∀ b, disk = some b → b <+: remote.content) →
      readLocal parse disk = .data d → parse remote.content = some d ∧ disk = some remote.content := by
    intro disk hdisk hr
    cases disk with
    | none => cases hr
    | some b =>
      have hb := hdisk b rfl
      rw [List.prefix_iff_eq_take] at hb
      by_cases hl : b.length < remote.content.length
      · unfold readLocal at hr
        have := hparse _ hl
        rw [← hb] at this
        simp only [this] at hr
        cases hr
      · rw [List.take_of_length_le (by omega)] at hb
        subst hb
        unfold readLocal at hr
        cases hp : parse remote.content with
        | none => simp only [hp] at hr; cases hr
        | some d' => simp only [hp] at hr; cases hr; exact ⟨rfl, rfl⟩
  rcases hc : cacheAfter parse remote history with _ | b
  · rw [hc] at h
    have hpre : ∀ b, (getDataset parse remote t none).1 = some b → b <+: remote.content := by
      intro b hb
      rcases (getDataset_disk parse remote t).2 with h' | ⟨k, h'⟩
      · rw [h'] at hb; cases hb
      · rw [h'] at hb; cases hb; exact List.take_prefix k _
    have hread : (getDataset parse remote t none).2 = .data d →
        readLocal parse (getDataset parse remote t none).1 = .data d := by
      intro h
      unfold getDataset at h ⊢
      simp only at h ⊢
      rcases hd : downloadFile remote t none with ⟨disk', r⟩
      rw [hd] at h
      cases r with
      | died => cases h
      | raised e => cases h
      | data u => exact h
    exact key _ hpre (hread h)
  · rw [hc] at h
    exact key (some b) (by intro b' hb'; cases hb'; exact C44_prefix parse remote history b hc) h

/-- A call that downloads and is neither killed nor cut short leaves the complete file. -/
theorem C44_download (parse : List B → Option D) (remote : Remote B) (ha : remote.announced = true)
    (t : Transfer) (h : (downloadFile remote t none).2 = .data ()) :
    (getDataset parse remote t none).1 = some remote.content := by
  cases t with
  | notOpened => cases h
  | crash k => cases h
  | closed k =>
    unfold downloadFile at h
    by_cases hk : remote.announced = true ∧ k < remote.content.length
    · simp only [if_pos hk] at h; cases h
    · have : remote.content.length ≤ k := by
        by_contra hlt
        exact hk ⟨ha, by omega⟩
      unfold getDataset downloadFile
      simp only [if_neg hk]
      rw [List.take_of_length_le this]
  | complete => rfl

/-- **A partial file is never repaired**: once a file is in the cache every later history leaves it there, so
after a crash (or an announced length not reached) `get_*` keeps failing, or keeps returning what the truncated
file parses to. -/
theorem C44_stuck (parse : List B → Option D) (remote : Remote B) (history later : List Transfer)
    (bytes : List B) (h : cacheAfter parse remote history = some bytes) (t : Transfer) :
    cacheAfter parse remote (history ++ later) = some bytes ∧
      (getDataset parse remote t (cacheAfter parse remote (history ++ later))).2 =
        readLocal parse (some bytes) := by
  have h1 : cacheAfter parse remote (history ++ later) = some bytes := by
    induction later using List.reverseRecOn with
    | nil => simpa using h
    | append_singleton l t ih => rw [← List.append_assoc, cacheAfter_snoc, ih]; rfl
  exact ⟨h1, by rw [h1]; rfl⟩

/-- **The code itself has no check**: with a reader that accepts a truncated file a crashed download is
returned as the dataset; with one that rejects it, every later call raises although the server is fine. -/
theorem C44_crash_violated :
    let remote : Remote Nat := ⟨[1, 2, 3], true⟩
    cacheAfter (D := List Nat) some remote [.crash 2] = some [1, 2] ∧
      getDataset (D := List Nat) some remote .complete (cacheAfter (D := List Nat) some remote [.crash 2]) =
        (some [1, 2], .data [1, 2]) ∧
      getDataset (fun b => if b.length = 3 then some b else none) remote .complete
        (cacheAfter (fun b => if b.length = 3 then some b else none) remote [.crash 2]) =
        (some [1, 2], .raised .runtimeError) := by
  refine ⟨rfl, rfl, rfl⟩

/-- The same after a connection that ends early, without any crash; if the server does not announce the
length, not even the first call notices. -/
theorem C44_closed_violated :
    (getDataset (D := List Nat) some ⟨[1, 2, 3], true⟩ (.closed 2) none).2 = .raised .runtimeError ∧
      getDataset (D := List Nat) some ⟨[1, 2, 3], true⟩ .complete
        (cacheAfter (D := List Nat) some ⟨[1, 2, 3], true⟩ [.closed 2]) = (some [1, 2], .data [1, 2]) ∧
      getDataset (D := List Nat) some ⟨[1, 2, 3], false⟩ (.closed 2) none = (some [1, 2], .data [1, 2]) := by
  refine ⟨rfl, rfl, rfl⟩

/-- The hypothesis on the reader is satisfiable and a normal history returns the dataset. -/
example : let parse := fun b : List Nat => if b.length = 3 then some b else none
    (∀ k, k < 3 → parse ([1, 2, 3].take k) = none) ∧
      (getDataset parse ⟨[1, 2, 3], true⟩ .complete (cacheAfter parse ⟨[1, 2, 3], true⟩ [.notOpened])).2 =
        .data [1, 2, 3] := by
  decide

end Implicit
