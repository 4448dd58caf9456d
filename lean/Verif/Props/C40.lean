import Verif.Props.C39

/-!
# C40 — Moving a model between CPU and GPU preserves it
-/

set_option linter.unusedSectionVars false

namespace Implicit

open Spec

variable {R : Type}

namespace Spec

/-- Factors that the GPU matrix class can represent: none yet, or a non-empty row-major matrix of 16 or 32 bit
floats. -/
def HostFactors : Option (PyVal R) → Prop
  | some .none => True
  | some (.array a) => (∃ r c, a.shape = [r, c] ∧ 0 < r ∧ 0 < c) ∧
      (a.dtype = "float32" ∨ a.dtype = "float16") ∧ a.fortran = false
  | _ => False

/-- Factors of a GPU model. -/
def DeviceFactors : Option (PyVal R) → Prop
  | some .none => True
  | some (.device a) => (∃ r c, a.shape = [r, c] ∧ 0 < r ∧ 0 < c) ∧
      (a.dtype = "float32" ∨ a.dtype = "float16") ∧ a.fortran = false
  | _ => False

/-- The device attribute `d` holds the same matrix as the host attribute `h`. -/
def SameMatrix : Option (PyVal R) → Option (PyVal R) → Prop
  | some .none, some .none => True
  | some (.array a), some (.device b) => a.shape = b.shape ∧ a.dtype = b.dtype ∧
      ∀ i j, cellAt b i j = cellAt a i j
  | _, _ => False

end Spec

/-- The device matrix made from host factors. -/
def up : PyVal R → PyVal R
  | .array a => .device ⟨a.shape, a.dtype, false, a.data⟩
  | v => v

/-- The host array made from a device matrix. -/
def down : PyVal R → PyVal R
  | .device a => .array ⟨a.shape, a.dtype, false, a.data⟩
  | v => v

theorem convert_up (o ret : PyObj R) (k : Attr) (v : PyVal R) (hk : o k = some v)
    (h : HostFactors (some v)) : convertAttr toDevice o ret k = .ok (setAttr ret k (up v)) := by
  unfold convertAttr
  rw [hk]
  cases v <;> first | exact h.elim | skip
  · rfl
  · rename_i a
    obtain ⟨⟨r, c, hsh, hr, hc⟩, hdt, hf⟩ := h
    simp only [toDevice, hsh, if_pos hdt, up]
    rw [if_neg (by omega)]
    rfl

theorem convert_down (o ret : PyObj R) (k : Attr) (v : PyVal R) (hk : o k = some v)
    (h : DeviceFactors (some v)) : convertAttr toNumpy o ret k = .ok (setAttr ret k (down v)) := by
  unfold convertAttr
  rw [hk]
  cases v <;> first | exact h.elim | rfl

theorem up_spec (v : PyVal R) (h : HostFactors (some v)) :
    SameMatrix (some v) (some (up v)) ∧ DeviceFactors (some (up v)) ∧ down (up v) = v := by
  cases v <;> first | exact h.elim | skip
  · exact ⟨trivial, trivial, rfl⟩
  · rename_i a
    obtain ⟨hsh, hdt, hf⟩ := h
    obtain ⟨sh, dt, fo, da⟩ := a
    simp only at hf
    subst hf
    exact ⟨⟨rfl, rfl, fun i j => rfl⟩, ⟨hsh, hdt, rfl⟩, rfl⟩

theorem down_spec (v : PyVal R) (h : DeviceFactors (some v)) :
    SameMatrix (some (down v)) (some v) ∧ HostFactors (some (down v)) ∧ up (down v) = v := by
  cases v <;> first | exact h.elim | skip
  · exact ⟨trivial, trivial, rfl⟩
  · rename_i a
    obtain ⟨hsh, hdt, hf⟩ := h
    obtain ⟨sh, dt, fo, da⟩ := a
    simp only at hf
    subst hf
    exact ⟨⟨rfl, rfl, fun i j => rfl⟩, ⟨hsh, hdt, rfl⟩, rfl⟩

theorem getAttr_some (o : PyObj R) (k : Attr) (v : PyVal R) (h : o k = some v) : getAttr o k = .ok v := by
  unfold getAttr; rw [h]

/-- Attributes carried over by the ALS conversions. -/
def alsCarried : List Attr :=
  [.factors, .regularization, .alpha, .dtype, .iterations, .calculateTrainingLoss, .randomState]

/-- Attributes carried over by the BPR conversions. -/
def bprCarried : List Attr :=
  [.factors, .learningRate, .regularization, .iterations, .verifyNegativeSamples, .randomState]

theorem alsToGpu_spec (o : PyObj R) (ho : ∀ k ∈ alsCarried, (o k).isSome) (u i : PyVal R)
    (hu : o .userFactors = some u) (hi : o .itemFactors = some i) (hu' : HostFactors (some u))
    (hi' : HostFactors (some i)) :
    ∃ g, alsToGpu o = .ok g ∧ SameOn alsCarried o g ∧ g .userFactors = some (up u) ∧
      g .itemFactors = some (up i) ∧
      g .cgSteps = some (.int 3) := by
  obtain ⟨f, hf⟩ := Option.isSome_iff_exists.mp (ho .factors (by decide))
  obtain ⟨rg, hrg⟩ := Option.isSome_iff_exists.mp (ho .regularization (by decide))
  obtain ⟨al, hal⟩ := Option.isSome_iff_exists.mp (ho .alpha (by decide))
  obtain ⟨dt, hdt⟩ := Option.isSome_iff_exists.mp (ho .dtype (by decide))
  obtain ⟨it, hit⟩ := Option.isSome_iff_exists.mp (ho .iterations (by decide))
  obtain ⟨lo, hlo⟩ := Option.isSome_iff_exists.mp (ho .calculateTrainingLoss (by decide))
  obtain ⟨rs, hrs⟩ := Option.isSome_iff_exists.mp (ho .randomState (by decide))
  refine ⟨setAttr (setAttr (gpuAlsNew f rg al dt it lo rs) .userFactors (up u)) .itemFactors (up i), ?_, ?_, rfl, rfl, rfl⟩
  · unfold alsToGpu
    rw [getAttr_some o _ _ hf, getAttr_some o _ _ hrg, getAttr_some o _ _ hal, getAttr_some o _ _ hdt, getAttr_some o _ _ hit, getAttr_some o _ _ hlo, getAttr_some o _ _ hrs]
    simp only [bind, Except.bind]
    rw [convert_up o _ .userFactors u hu hu']
    exact convert_up o _ .itemFactors i hi hi'
  · intro k hk
    simp only [alsCarried, List.mem_cons, List.not_mem_nil, or_false] at hk
    rcases hk with rfl | rfl | rfl | rfl | rfl | rfl | rfl
    · exact hf.symm
    · exact hrg.symm
    · exact hal.symm
    · exact hdt.symm
    · exact hit.symm
    · exact hlo.symm
    · exact hrs.symm

theorem alsToCpu_spec (o : PyObj R) (ho : ∀ k ∈ alsCarried, (o k).isSome) (u i : PyVal R)
    (hu : o .userFactors = some u) (hi : o .itemFactors = some i) (hu' : DeviceFactors (some u))
    (hi' : DeviceFactors (some i)) :
    ∃ g, alsToCpu o = .ok g ∧ SameOn alsCarried o g ∧ g .userFactors = some (down u) ∧
      g .itemFactors = some (down i) ∧
      g .useNative = some (.bool true) ∧ g .useCg = some (.bool true) ∧ g .numThreads = some (.int 0) ∧
      g .cgSteps = some (.int 3) := by
  obtain ⟨f, hf⟩ := Option.isSome_iff_exists.mp (ho .factors (by decide))
  obtain ⟨rg, hrg⟩ := Option.isSome_iff_exists.mp (ho .regularization (by decide))
  obtain ⟨al, hal⟩ := Option.isSome_iff_exists.mp (ho .alpha (by decide))
  obtain ⟨dt, hdt⟩ := Option.isSome_iff_exists.mp (ho .dtype (by decide))
  obtain ⟨it, hit⟩ := Option.isSome_iff_exists.mp (ho .iterations (by decide))
  obtain ⟨lo, hlo⟩ := Option.isSome_iff_exists.mp (ho .calculateTrainingLoss (by decide))
  obtain ⟨rs, hrs⟩ := Option.isSome_iff_exists.mp (ho .randomState (by decide))
  refine ⟨setAttr (setAttr (alsNew f rg al dt (.bool true) (.bool true) it lo (.int 0) rs) .userFactors (down u)) .itemFactors (down i), ?_, ?_, rfl, rfl, rfl, rfl, rfl, rfl⟩
  · unfold alsToCpu
    rw [getAttr_some o _ _ hf, getAttr_some o _ _ hrg, getAttr_some o _ _ hal, getAttr_some o _ _ hdt, getAttr_some o _ _ hit, getAttr_some o _ _ hlo, getAttr_some o _ _ hrs]
    simp only [bind, Except.bind]
    rw [convert_down o _ .userFactors u hu hu']
    exact convert_down o _ .itemFactors i hi hi'
  · intro k hk
    simp only [alsCarried, List.mem_cons, List.not_mem_nil, or_false] at hk
    rcases hk with rfl | rfl | rfl | rfl | rfl | rfl | rfl
    · exact hf.symm
    · exact hrg.symm
    · exact hal.symm
    · exact hdt.symm
    · exact hit.symm
    · exact hlo.symm
    · exact hrs.symm

theorem bprToGpu_spec (o : PyObj R) (ho : ∀ k ∈ bprCarried, (o k).isSome) (u i : PyVal R)
    (hu : o .userFactors = some u) (hi : o .itemFactors = some i) (hu' : HostFactors (some u))
    (hi' : HostFactors (some i)) :
    ∃ g, bprToGpu o = .ok g ∧ SameOn bprCarried o g ∧ g .userFactors = some (up u) ∧
      g .itemFactors = some (up i) := by
  obtain ⟨f, hf⟩ := Option.isSome_iff_exists.mp (ho .factors (by decide))
  obtain ⟨lr, hlr⟩ := Option.isSome_iff_exists.mp (ho .learningRate (by decide))
  obtain ⟨rg, hrg⟩ := Option.isSome_iff_exists.mp (ho .regularization (by decide))
  obtain ⟨it, hit⟩ := Option.isSome_iff_exists.mp (ho .iterations (by decide))
  obtain ⟨ve, hve⟩ := Option.isSome_iff_exists.mp (ho .verifyNegativeSamples (by decide))
  obtain ⟨rs, hrs⟩ := Option.isSome_iff_exists.mp (ho .randomState (by decide))
  refine ⟨setAttr (setAttr (gpuBprNew f lr rg it ve rs) .userFactors (up u)) .itemFactors (up i), ?_, ?_, rfl, rfl⟩
  · unfold bprToGpu
    rw [getAttr_some o _ _ hf, getAttr_some o _ _ hlr, getAttr_some o _ _ hrg, getAttr_some o _ _ hit, getAttr_some o _ _ hve, getAttr_some o _ _ hrs]
    simp only [bind, Except.bind]
    rw [convert_up o _ .userFactors u hu hu']
    exact convert_up o _ .itemFactors i hi hi'
  · intro k hk
    simp only [bprCarried, List.mem_cons, List.not_mem_nil, or_false] at hk
    rcases hk with rfl | rfl | rfl | rfl | rfl | rfl
    · exact hf.symm
    · exact hlr.symm
    · exact hrg.symm
    · exact hit.symm
    · exact hve.symm
    · exact hrs.symm

theorem bprToCpu_spec (o : PyObj R) (ho : ∀ k ∈ bprCarried, (o k).isSome) (u i : PyVal R)
    (hu : o .userFactors = some u) (hi : o .itemFactors = some i) (hu' : DeviceFactors (some u))
    (hi' : DeviceFactors (some i)) :
    ∃ g, bprToCpu o = .ok g ∧ SameOn bprCarried o g ∧ g .userFactors = some (down u) ∧
      g .itemFactors = some (down i) ∧
      g .dtype = some (.dtype "float32") ∧ g .numThreads = some (.int 0) := by
  obtain ⟨f, hf⟩ := Option.isSome_iff_exists.mp (ho .factors (by decide))
  obtain ⟨lr, hlr⟩ := Option.isSome_iff_exists.mp (ho .learningRate (by decide))
  obtain ⟨rg, hrg⟩ := Option.isSome_iff_exists.mp (ho .regularization (by decide))
  obtain ⟨it, hit⟩ := Option.isSome_iff_exists.mp (ho .iterations (by decide))
  obtain ⟨ve, hve⟩ := Option.isSome_iff_exists.mp (ho .verifyNegativeSamples (by decide))
  obtain ⟨rs, hrs⟩ := Option.isSome_iff_exists.mp (ho .randomState (by decide))
  refine ⟨setAttr (setAttr (bprNew f lr rg (.dtype "float32") it (.int 0) ve rs) .userFactors (down u)) .itemFactors (down i), ?_, ?_, rfl, rfl, rfl, rfl⟩
  · unfold bprToCpu
    rw [getAttr_some o _ _ hf, getAttr_some o _ _ hlr, getAttr_some o _ _ hrg, getAttr_some o _ _ hit, getAttr_some o _ _ hve, getAttr_some o _ _ hrs]
    simp only [bind, Except.bind]
    rw [convert_down o _ .userFactors u hu hu']
    exact convert_down o _ .itemFactors i hi hi'
  · intro k hk
    simp only [bprCarried, List.mem_cons, List.not_mem_nil, or_false] at hk
    rcases hk with rfl | rfl | rfl | rfl | rfl | rfl
    · exact hf.symm
    · exact hlr.symm
    · exact hrg.symm
    · exact hit.symm
    · exact hve.symm
    · exact hrs.symm

theorem host_some (x : Option (PyVal R)) (h : HostFactors x) : ∃ v, x = some v := by
  cases x with
  | none => exact h.elim
  | some v => exact ⟨v, rfl⟩

theorem device_some (x : Option (PyVal R)) (h : DeviceFactors x) : ∃ v, x = some v := by
  cases x with
  | none => exact h.elim
  | some v => exact ⟨v, rfl⟩

/-- **ALS, CPU to GPU and back**: the factors, and the attributes of `alsCarried`, are preserved; on the GPU
the factors have the same entries. -/
theorem C40_als_partial (o : PyObj R) (ho : ∀ k ∈ alsCarried, (o k).isSome)
    (hu : HostFactors (o .userFactors)) (hi : HostFactors (o .itemFactors)) :
    ∃ g o', alsToGpu o = .ok g ∧ SameMatrix (o .userFactors) (g .userFactors) ∧
      SameMatrix (o .itemFactors) (g .itemFactors) ∧ SameOn alsCarried o g ∧
      alsToCpu g = .ok o' ∧ SameOn (.userFactors :: .itemFactors :: alsCarried) o o' := by
  obtain ⟨u, eu⟩ := host_some _ hu
  obtain ⟨i, ei⟩ := host_some _ hi
  rw [eu] at hu
  rw [ei] at hi
  obtain ⟨g, hg, hs, hgu, hgi, _⟩ := alsToGpu_spec o ho u i eu ei hu hi
  obtain ⟨su, du, ru⟩ := up_spec u hu
  obtain ⟨si, di, ri⟩ := up_spec i hi
  obtain ⟨o', ho', hs', hu'', hi'', _⟩ := alsToCpu_spec g (fun k hk => by rw [hs k hk]; exact ho k hk) _ _
    hgu hgi du di
  refine ⟨g, o', hg, by rw [eu, hgu]; exact su, by rw [ei, hgi]; exact si, hs, ho', ?_⟩
  intro k hk
  rcases List.mem_cons.mp hk with rfl | hk
  · rw [hu'', ru, eu]
  · rcases List.mem_cons.mp hk with rfl | hk
    · rw [hi'', ri, ei]
    · rw [hs' k hk, hs k hk]

/-- **ALS, GPU to CPU and back.** -/
theorem C40_als_gpu_partial (o : PyObj R) (ho : ∀ k ∈ alsCarried, (o k).isSome)
    (hu : DeviceFactors (o .userFactors)) (hi : DeviceFactors (o .itemFactors)) :
    ∃ g o', alsToCpu o = .ok g ∧ SameMatrix (g .userFactors) (o .userFactors) ∧
      SameMatrix (g .itemFactors) (o .itemFactors) ∧ SameOn alsCarried o g ∧
      alsToGpu g = .ok o' ∧ SameOn (.userFactors :: .itemFactors :: alsCarried) o o' := by
  obtain ⟨u, eu⟩ := device_some _ hu
  obtain ⟨i, ei⟩ := device_some _ hi
  rw [eu] at hu
  rw [ei] at hi
  obtain ⟨g, hg, hs, hgu, hgi, _⟩ := alsToCpu_spec o ho u i eu ei hu hi
  obtain ⟨su, du, ru⟩ := down_spec u hu
  obtain ⟨si, di, ri⟩ := down_spec i hi
  obtain ⟨o', ho', hs', hu'', hi'', _⟩ := alsToGpu_spec g (fun k hk => by rw [hs k hk]; exact ho k hk) _ _
    hgu hgi du di
  refine ⟨g, o', hg, by rw [eu, hgu]; exact su, by rw [ei, hgi]; exact si, hs, ho', ?_⟩
  intro k hk
  rcases List.mem_cons.mp hk with rfl | hk
  · rw [hu'', ru, eu]
  · rcases List.mem_cons.mp hk with rfl | hk
    · rw [hi'', ri, ei]
    · rw [hs' k hk, hs k hk]

/-- **BPR, CPU to GPU and back**: the factors, and the attributes of `bprCarried`, are preserved; on the GPU
the factors have the same entries. -/
theorem C40_bpr_partial (o : PyObj R) (ho : ∀ k ∈ bprCarried, (o k).isSome)
    (hu : HostFactors (o .userFactors)) (hi : HostFactors (o .itemFactors)) :
    ∃ g o', bprToGpu o = .ok g ∧ SameMatrix (o .userFactors) (g .userFactors) ∧
      SameMatrix (o .itemFactors) (g .itemFactors) ∧ SameOn bprCarried o g ∧
      bprToCpu g = .ok o' ∧ SameOn (.userFactors :: .itemFactors :: bprCarried) o o' := by
  obtain ⟨u, eu⟩ := host_some _ hu
  obtain ⟨i, ei⟩ := host_some _ hi
  rw [eu] at hu
  rw [ei] at hi
  obtain ⟨g, hg, hs, hgu, hgi⟩ := bprToGpu_spec o ho u i eu ei hu hi
  obtain ⟨su, du, ru⟩ := up_spec u hu
  obtain ⟨si, di, ri⟩ := up_spec i hi
  obtain ⟨o', ho', hs', hu'', hi'', _⟩ := bprToCpu_spec g (fun k hk => by rw [hs k hk]; exact ho k hk) _ _
    hgu hgi du di
  refine ⟨g, o', hg, by rw [eu, hgu]; exact su, by rw [ei, hgi]; exact si, hs, ho', ?_⟩
  intro k hk
  rcases List.mem_cons.mp hk with rfl | hk
  · rw [hu'', ru, eu]
  · rcases List.mem_cons.mp hk with rfl | hk
    · rw [hi'', ri, ei]
    · rw [hs' k hk, hs k hk]

/-- **BPR, GPU to CPU and back.** -/
theorem C40_bpr_gpu_partial (o : PyObj R) (ho : ∀ k ∈ bprCarried, (o k).isSome)
    (hu : DeviceFactors (o .userFactors)) (hi : DeviceFactors (o .itemFactors)) :
    ∃ g o', bprToCpu o = .ok g ∧ SameMatrix (g .userFactors) (o .userFactors) ∧
      SameMatrix (g .itemFactors) (o .itemFactors) ∧ SameOn bprCarried o g ∧
      bprToGpu g = .ok o' ∧ SameOn (.userFactors :: .itemFactors :: bprCarried) o o' := by
  obtain ⟨u, eu⟩ := device_some _ hu
  obtain ⟨i, ei⟩ := device_some _ hi
  rw [eu] at hu
  rw [ei] at hi
  obtain ⟨g, hg, hs, hgu, hgi, _⟩ := bprToCpu_spec o ho u i eu ei hu hi
  obtain ⟨su, du, ru⟩ := down_spec u hu
  obtain ⟨si, di, ri⟩ := down_spec i hi
  obtain ⟨o', ho', hs', hu'', hi''⟩ := bprToGpu_spec g (fun k hk => by rw [hs k hk]; exact ho k hk) _ _
    hgu hgi du di
  refine ⟨g, o', hg, by rw [eu, hgu]; exact su, by rw [ei, hgi]; exact si, hs, ho', ?_⟩
  intro k hk
  rcases List.mem_cons.mp hk with rfl | hk
  · rw [hu'', ru, eu]
  · rcases List.mem_cons.mp hk with rfl | hk
    · rw [hi'', ri, ei]
    · rw [hs' k hk, hs k hk]

/-! ## Where it fails -/

/-- The ALS options `use_native`, `use_cg`, `num_threads` and the attribute `cg_steps` are reset by a round
trip. -/
theorem C40_options_violated :
    let o : PyObj Rat := setAttr (alsNew (.int 8) (.float 1) (.float 1) (.dtype "float32") (.bool false)
      (.bool false) (.int 15) (.bool false) (.int 4) .none) .cgSteps (.int 7)
    ∃ g o', alsToGpu o = .ok g ∧ alsToCpu g = .ok o' ∧
      o' .useNative = some (.bool true) ∧ o' .useCg = some (.bool true) ∧
      o' .numThreads = some (.int 0) ∧ o' .cgSteps = some (.int 3) := by
  refine ⟨_, _, rfl, rfl, rfl, rfl, rfl, rfl⟩

/-- The BPR options `dtype` and `num_threads` are reset by a round trip. -/
theorem C40_bpr_options_violated :
    let o : PyObj Rat := bprNew (.int 8) (.float 1) (.float 1) (.dtype "float64") (.int 15) (.int 4)
      (.bool true) .none
    ∃ g o', bprToGpu o = .ok g ∧ bprToCpu g = .ok o' ∧
      o' .dtype = some (.dtype "float32") ∧ o' .numThreads = some (.int 0) := by
  refine ⟨_, _, rfl, rfl, rfl, rfl⟩

/-- A model trained with `dtype=np.float64` (documented) cannot be moved. -/
theorem C40_float64_violated :
    let o : PyObj Rat := setAttr (setAttr (alsNew (.int 1) (.float 1) (.float 1) (.dtype "float64")
      (.bool true) (.bool true) (.int 15) (.bool false) (.int 0) .none)
      .userFactors (.array ⟨[2, 1], "float64", false, [1, 2]⟩))
      .itemFactors (.array ⟨[2, 1], "float64", false, [3, 4]⟩)
    alsToGpu o = .error .valueError := by
  simp [alsToGpu, getAttr, setAttr, alsNew, objOf, convertAttr, toDevice, bind, Except.bind]

/-- Factors in Fortran order (e.g. a transposed array assigned by the user) arrive scrambled: the memory is
copied as if it were row-major. -/
theorem C40_fortran_violated :
    let a : NdArray Rat := ⟨[2, 2], "float32", true, [1, 3, 2, 4]⟩
    ∃ b, toDevice (.array a) = .ok (.device b) ∧
      cellAt a 0 1 = some 2 ∧ cellAt b 0 1 = some 3 := by
  refine ⟨⟨[2, 2], "float32", false, [1, 3, 2, 4]⟩, ?_, by decide +kernel, by decide +kernel⟩
  simp [toDevice]

/-! ## Saving, loading and pickling GPU models (C39) -/

/-- **GPU ALS: save then load.** -/
theorem C39_gpu_als_partial (c : Consts R) (o : PyObj R)
    (ho : MfState alsCarried o) (hu : DeviceFactors (o .userFactors)) (hi : DeviceFactors (o .itemFactors))
    (t : Target) (ht : Findable t) (disk : Disk (List (Attr × NpVal R))) :
    ∃ disk' o', gpuSave alsToCpu alsKeys o t disk = .ok disk' ∧
      gpuLoad (gpuAlsDefault c) alsToCpu alsToGpu (alsDefault c) t disk' = .ok o' ∧
      SameOn (.userFactors :: .itemFactors :: alsCarried) o o' := by
  obtain ⟨u, eu⟩ := device_some _ hu
  obtain ⟨i, ei⟩ := device_some _ hi
  rw [eu] at hu
  rw [ei] at hi
  have some_of : ∀ k ∈ alsCarried, (o k).isSome := by
    intro k hk
    have := ho k hk
    by_cases hd : k = .dtype
    · rw [if_pos hd] at this; obtain ⟨n, hn⟩ := this; rw [hn]; rfl
    · rw [if_neg hd] at this
      rcases this with ⟨v, hv, _⟩ | ⟨_, hv⟩ <;> rw [hv] <;> rfl
  obtain ⟨g, hg, hs, hgu, hgi, hn, hcg, hth, hst⟩ := alsToCpu_spec o some_of u i eu ei hu hi
  obtain ⟨_, hdu, ru⟩ := down_spec u hu
  obtain ⟨_, hdi, ri⟩ := down_spec i hi
  have host_plain : ∀ v : PyVal R, HostFactors (some v) → Plain v ∨ v = .none := by
    intro v hv
    cases v <;> first | exact hv.elim | skip
    · exact Or.inr rfl
    · exact Or.inl trivial
  have hgs : MfState alsKeys g := by
    intro k hk
    by_cases hc : k ∈ alsCarried
    · have := ho k hc
      rw [hs k hc]
      exact this
    · simp only [alsKeys, List.mem_cons, List.not_mem_nil, or_false] at hk
      rcases hk with rfl | rfl | rfl | rfl | rfl | rfl | rfl | rfl | rfl | rfl | rfl | rfl | rfl <;>
        first | exact absurd (by decide) hc | skip
      · rw [if_neg (by decide)]
        rcases host_plain _ hdu with h | h
        · exact Or.inl ⟨_, hgu, h⟩
        · exact Or.inr ⟨Or.inl rfl, by rw [hgu, h]⟩
      · rw [if_neg (by decide)]
        rcases host_plain _ hdi with h | h
        · exact Or.inl ⟨_, hgi, h⟩
        · exact Or.inr ⟨Or.inr (Or.inl rfl), by rw [hgi, h]⟩
      · rw [if_neg (by decide)]; exact Or.inl ⟨_, hth, by norm_num [Plain]⟩
      · rw [if_neg (by decide)]; exact Or.inl ⟨_, hn, trivial⟩
      · rw [if_neg (by decide)]; exact Or.inl ⟨_, hcg, trivial⟩
      · rw [if_neg (by decide)]; exact Or.inl ⟨_, hst, by norm_num [Plain]⟩
  obtain ⟨d, hd, _, l, hl, hsl, _⟩ := mf_round_trip alsKeys g (alsDefault c) hgs t ht disk
    (by intro k hk; simp only [List.mem_cons, List.not_mem_nil, or_false] at hk
        rcases hk with rfl | rfl | rfl <;> rfl)
  have hlc : ∀ k ∈ alsCarried, l k = o k := fun k hk =>
    (hsl k (by revert k; decide)).trans (hs k hk)
  obtain ⟨o', ho', hs', hu', hi', _⟩ := alsToGpu_spec l
    (fun k hk => by rw [hlc k hk]; exact some_of k hk) (down u) (down i)
    ((hsl .userFactors (by decide)).trans hgu) ((hsl .itemFactors (by decide)).trans hgi) hdu hdi
  refine ⟨d, o', ?_, ?_, ?_⟩
  · unfold gpuSave
    rw [hg]
    exact hd
  · unfold gpuLoad
    have hdef : ∃ x, alsToCpu (gpuAlsDefault c) = .ok x := ⟨_, rfl⟩
    obtain ⟨x, hx⟩ := hdef
    rw [hx]
    simp only [bind, Except.bind]
    rw [hl]
    exact ho'
  · intro k hk
    rcases List.mem_cons.mp hk with rfl | hk
    · rw [hu', ru, eu]
    · rcases List.mem_cons.mp hk with rfl | hk
      · rw [hi', ri, ei]
      · rw [hs' k hk, hlc k hk]

/-- **GPU BPR: save then load.** -/
theorem C39_gpu_bpr (c : Consts R) (o : PyObj R)
    (ho : MfState bprCarried o) (hu : DeviceFactors (o .userFactors)) (hi : DeviceFactors (o .itemFactors))
    (t : Target) (ht : Findable t) (disk : Disk (List (Attr × NpVal R))) :
    ∃ disk' o', gpuSave bprToCpu bprKeys o t disk = .ok disk' ∧
      gpuLoad (gpuBprDefault c) bprToCpu bprToGpu (bprDefault c) t disk' = .ok o' ∧
      SameOn (.userFactors :: .itemFactors :: bprCarried) o o' := by
  obtain ⟨u, eu⟩ := device_some _ hu
  obtain ⟨i, ei⟩ := device_some _ hi
  rw [eu] at hu
  rw [ei] at hi
  have some_of : ∀ k ∈ bprCarried, (o k).isSome := by
    intro k hk
    have := ho k hk
    by_cases hd : k = .dtype
    · rw [if_pos hd] at this; obtain ⟨n, hn⟩ := this; rw [hn]; rfl
    · rw [if_neg hd] at this
      rcases this with ⟨v, hv, _⟩ | ⟨_, hv⟩ <;> rw [hv] <;> rfl
  obtain ⟨g, hg, hs, hgu, hgi, hdt, hth⟩ := bprToCpu_spec o some_of u i eu ei hu hi
  obtain ⟨_, hdu, ru⟩ := down_spec u hu
  obtain ⟨_, hdi, ri⟩ := down_spec i hi
  have host_plain : ∀ v : PyVal R, HostFactors (some v) → Plain v ∨ v = .none := by
    intro v hv
    cases v <;> first | exact hv.elim | skip
    · exact Or.inr rfl
    · exact Or.inl trivial
  have hgs : MfState bprKeys g := by
    intro k hk
    by_cases hc : k ∈ bprCarried
    · have := ho k hc
      rw [hs k hc]
      exact this
    · simp only [bprKeys, List.mem_cons, List.not_mem_nil, or_false] at hk
      rcases hk with rfl | rfl | rfl | rfl | rfl | rfl | rfl | rfl | rfl | rfl <;>
        first | exact absurd (by decide) hc | skip
      · rw [if_neg (by decide)]
        rcases host_plain _ hdu with h | h
        · exact Or.inl ⟨_, hgu, h⟩
        · exact Or.inr ⟨Or.inl rfl, by rw [hgu, h]⟩
      · rw [if_neg (by decide)]
        rcases host_plain _ hdi with h | h
        · exact Or.inl ⟨_, hgi, h⟩
        · exact Or.inr ⟨Or.inr (Or.inl rfl), by rw [hgi, h]⟩
      · rw [if_neg (by decide)]; exact Or.inl ⟨_, hth, by norm_num [Plain]⟩
      · rw [if_pos rfl]; exact ⟨_, hdt⟩
  obtain ⟨d, hd, _, l, hl, hsl, _⟩ := mf_round_trip bprKeys g (bprDefault c) hgs t ht disk
    (by intro k hk; simp only [List.mem_cons, List.not_mem_nil, or_false] at hk
        rcases hk with rfl | rfl | rfl <;> rfl)
  have hlc : ∀ k ∈ bprCarried, l k = o k := fun k hk =>
    (hsl k (by revert k; decide)).trans (hs k hk)
  obtain ⟨o', ho', hs', hu', hi'⟩ := bprToGpu_spec l
    (fun k hk => by rw [hlc k hk]; exact some_of k hk) (down u) (down i)
    ((hsl .userFactors (by decide)).trans hgu) ((hsl .itemFactors (by decide)).trans hgi) hdu hdi
  refine ⟨d, o', ?_, ?_, ?_⟩
  · unfold gpuSave
    rw [hg]
    exact hd
  · unfold gpuLoad
    have hdef : ∃ x, bprToCpu (gpuBprDefault c) = .ok x := ⟨_, rfl⟩
    obtain ⟨x, hx⟩ := hdef
    rw [hx]
    simp only [bind, Except.bind]
    rw [hl]
    exact ho'
  · intro k hk
    rcases List.mem_cons.mp hk with rfl | hk
    · rw [hu', ru, eu]
    · rcases List.mem_cons.mp hk with rfl | hk
      · rw [hi', ri, ei]
      · rw [hs' k hk, hlc k hk]

/-- A new GPU BPR model, saved and loaded: 100 factors. -/
example : ∃ disk' o', gpuSave bprToCpu bprKeys (gpuBprDefault consts0) (.str ['m']) (fun _ => none) = .ok disk' ∧
    gpuLoad (gpuBprDefault consts0) bprToCpu bprToGpu (bprDefault consts0) (.str ['m']) disk' = .ok o' ∧
    o' .factors = some (.int 100) ∧ o' .learningRate = some (.float consts0.c001) := by
  refine ⟨_, _, rfl, rfl, rfl, rfl⟩

/-- The attribute `cg_steps` of a GPU model is not saved. -/
theorem C39_gpu_cg_steps_violated :
    let o : PyObj Rat := setAttr (gpuAlsDefault consts0) .cgSteps (.int 7)
    ∃ disk' o', gpuSave alsToCpu alsKeys o (.str ['m']) (fun _ => none) = .ok disk' ∧
      gpuLoad (gpuAlsDefault consts0) alsToCpu alsToGpu (alsDefault consts0) (.str ['m']) disk' = .ok o' ∧
      o' .cgSteps = some (.int 3) := by
  refine ⟨_, _, rfl, rfl, rfl⟩

/-- **Pickling a GPU model** preserves every attribute. -/
theorem C39_gpu_pickle (o : PyObj R) (hu : DeviceFactors (o .userFactors))
    (hi : DeviceFactors (o .itemFactors)) :
    ∃ s o', gpuGetState o = .ok s ∧ SameMatrix (s .userFactors) (o .userFactors) ∧
      SameMatrix (s .itemFactors) (o .itemFactors) ∧ gpuSetState s = .ok o' ∧ ∀ k, o' k = o k := by
  obtain ⟨u, eu⟩ := device_some _ hu
  obtain ⟨i, ei⟩ := device_some _ hi
  rw [eu] at hu
  rw [ei] at hi
  obtain ⟨su, hdu, ru⟩ := down_spec u hu
  obtain ⟨si, hdi, ri⟩ := down_spec i hi
  refine ⟨setAttr (setAttr o .itemFactors (down i)) .userFactors (down u),
    setAttr (setAttr (setAttr (setAttr o .itemFactors (down i)) .userFactors (down u)) .itemFactors i)
      .userFactors u, ?_, ?_, ?_, ?_, ?_⟩
  · unfold gpuGetState
    rw [convert_down o o .itemFactors i ei hi]
    simp only [bind, Except.bind]
    exact convert_down _ _ .userFactors u (by simp [setAttr, eu]) hu
  · rw [eu]; exact su
  · rw [ei]; exact si
  · unfold gpuSetState
    rw [convert_up _ _ .itemFactors (down i) rfl hdi, ri]
    simp only [bind, Except.bind]
    rw [convert_up _ _ .userFactors (down u) rfl hdu, ru]
  · intro k
    by_cases h1 : k = .userFactors
    · subst h1; simp [setAttr, eu]
    · by_cases h2 : k = .itemFactors
      · subst h2; simp [setAttr, ei]
      · simp [setAttr, h1, h2]

/-- The hypotheses are met by a trained single precision model. -/
example :
    let o : PyObj Rat := setAttr (setAttr (alsDefault consts0) .userFactors
      (.array ⟨[1, 2], "float32", false, [1, 2]⟩)) .itemFactors (.array ⟨[2, 2], "float32", false, [3, 4, 5, 6]⟩)
    (∀ k ∈ alsCarried, (o k).isSome) ∧ HostFactors (o .userFactors) ∧ HostFactors (o .itemFactors) :=
  ⟨by decide +kernel, ⟨⟨1, 2, rfl, by decide, by decide⟩, Or.inl rfl, rfl⟩,
    ⟨⟨2, 2, rfl, by decide, by decide⟩, Or.inl rfl, rfl⟩⟩

end Implicit
