import Verif.Model.SharedGpu
import Verif.Lemmas.Threads
import Verif.Props.C10
/-!
# C72 — threads that share a factor model on the GPU
-/

set_option linter.unusedSectionVars false

namespace Implicit

variable {R : Type} [LinearOrder R] [Field R] {f : Nat}

/-- **C72 violated** (GPU, norms).  Two threads call `similar_items` on a model whose norms are not cached yet: the second one finds
`_item_norms` set and `_item_norms_host` still `None`, and fails with a `TypeError`. -/
theorem C72_gpu_norms_violated :
    let norms : List (Vec 1 Rat) → List Rat := fun t => t.map fun v => |v 0|
    let start : Proc (GpuShared 1 Rat) _ := ⟨.cold [![1], ![-2]], [gpuSimilarNormsProg norms 1, gpuSimilarNormsProg norms 0]⟩
    let finish := start.run ([0, 0, 0] ++ [1, 1, 1, 1] ++ [0, 0, 0, 0])
    finish.result 0 = some (.ok ([1, 2], 2)) ∧ finish.result 1 = some (.error .typeError) ∧
      (start.run [1, 1, 1, 1, 1, 1, 1]).result 1 = some (.ok ([1, 2], 1)) := by
  decide +kernel

/-- **C72 violated** (GPU, Gram matrix).  Two threads call `recalculate_user` on a model whose Gram matrix is not cached yet: the
second one solves with the matrix of zeros. -/
theorem C72_gpu_gram_violated :
    let start : Proc (GpuShared 1 Rat) _ := ⟨.cold [![1], ![-2]], [gpuSolveGramProg gram, gpuSolveGramProg gram]⟩
    let finish := start.run ([0, 0] ++ [1, 1, 1] ++ [0, 0, 0, 0])
    ((finish.result 0).map fun r => r.map fun G => G 0 0) = some (.ok 5) ∧
      ((finish.result 1).map fun r => r.map fun G => G 0 0) = some (.ok 0) := by
  decide +kernel

/-- **C72 violated** (GPU, memory).  Two calls that each fit into the pool of `KnnQuery` do not fit at the same time: the second one
raises. -/
theorem C72_gpu_memory_violated :
    let call : GpuThread 1 Rat Nat := gpuPoolProg 8192 4 100 10 1
    let start : Proc (GpuShared 1 Rat) _ := ⟨.cold [], [call, call]⟩
    (start.run [1, 1]).result 1 = some (.ok 100) ∧ (start.run [0, 1, 0]).result 0 = some (.ok 100) ∧
      (start.run [0, 1, 0]).result 1 = some (.error .runtimeError) := by
  decide +kernel

theorem gpu_same (m : Nat) (i j : Fin m) (s s' : GpuShared f R) (_ : i ≠ j) (h : (fun _ : Fin m => fun s s' => s' = s) j s s') :
    (fun _ : Fin m => fun s s' : GpuShared f R => s' = s) i s s' := h

/-- Run in state `s`, the thread never waits, changes nothing and ends with `a`. -/
def ReadsOnly {S α : Type} (s : S) (a : α) : Prog S α → Prop
  | .done b => b = a
  | .step ready act next => ready s = true ∧ act s = s ∧ ReadsOnly s a (next s)

theorem ReadsOnly.safe {S α : Type} {s : S} {a : α} {rely : S → S → Prop} (hrely : ∀ t, rely s t → t = s) :
    ∀ {p : Prog S α}, ReadsOnly s a p → Safe rely (fun t t' => t' = t) (fun _ => False) (fun b _ => b = a) p fun t => t = s
  | .done _, h => ⟨fun t t' ht hr => hrely t' (ht ▸ hr), fun _ _ => h⟩
  | .step ready act next, h => by
    refine ⟨fun t t' ht hr => hrely t' (ht ▸ hr), fun t ht hr => ?_, fun t ht _ => ?_⟩
    · rw [ht, h.1] at hr; cases hr
    · subst ht
      exact ⟨h.2.1, _, h.2.1, h.2.2.safe hrely⟩

/-- What `similar_items` reads for an item, or what `recalculate_user` reads. -/
def gpuCall (norms : List (Vec f R) → List R) (gramOf : List (Vec f R) → Mat f R) :
    Option Nat → GpuThread f R ((List R × R) ⊕ Mat f R)
  | some itemid => (gpuSimilarNormsProg norms itemid).andThen fun x => .done (.ok (.inl x))
  | none => (gpuSolveGramProg gramOf).andThen fun x => .done (.ok (.inr x))

/-- **C72** (GPU, after the first call).  Once the norms and the Gram matrix are cached, any number of threads read the same norms and
the same Gram matrix under any schedule. -/
theorem C72_gpu_warm (norms : List (Vec f R) → List R) (gramOf : List (Vec f R) → Mat f R) (item : List (Vec f R))
    (a : List R) (G : Mat f R) (threads : List (Option Nat)) (schedule : List Nat) (i : Nat)
    (r : Except Err ((List R × R) ⊕ Mat f R))
    (hr : (Proc.run (S := GpuShared f R) ⟨⟨item, some a, some a, [G], some 0, 0⟩, threads.map (gpuCall norms gramOf)⟩ schedule).result i = some r) :
    (∀ itemid x, threads[i]? = some (some itemid) → a[itemid]? = some x → r = .ok (.inl (a, x))) ∧
    (∀ itemid, threads[i]? = some (some itemid) → a[itemid]? = none → r = .error .indexError) ∧
    (threads[i]? = some none → r = .ok (.inr G)) := by
  have hreads : ∀ t r', (match t with
      | some itemid => (gpuHostNorm itemid (some a)).map fun x => .inl (a, x)
      | none => .ok (.inr G)) = r' →
      ReadsOnly ⟨item, some a, some a, [G], some 0, 0⟩ r' (gpuCall norms gramOf t) := by
    rintro (_ | itemid) r' rfl
    · exact ⟨rfl, rfl, rfl, rfl, rfl, rfl, rfl⟩
    · refine ⟨rfl, rfl, rfl, rfl, rfl, rfl, ?_⟩
      simp only [Prog.bind]
      generalize gpuHostNorm itemid (some a) = h
      cases h <;> rfl
  have hsafe : AllSafe (n := threads.length) (fun _ s s' => s' = s) (fun _ s s' => s' = s) (fun _ _ => False)
      (fun i r _ => ∀ t, threads[i.val]? = some t → r = match t with
        | some itemid => (gpuHostNorm itemid (some a)).map fun x => .inl (a, x)
        | none => .ok (.inr G))
      (⟨⟨item, some a, some a, [G], some 0, 0⟩, threads.map (gpuCall norms gramOf)⟩ : Proc (GpuShared f R) _) := by
    refine ⟨by simp, fun i p hp => ⟨fun s => s = ⟨item, some a, some a, [G], some 0, 0⟩, rfl, ?_⟩⟩
    have hi := List.getElem?_eq_getElem i.isLt
    simp only [List.getElem?_map, hi, Option.map_some, Option.some.injEq] at hp
    subst hp
    refine Safe.weaken ?_ ((hreads threads[i.val] _ rfl).safe fun t h => h)
    rintro r s rfl t ht
    rw [hi] at ht
    rw [Option.some.inj ht]
  have hrun := hsafe.run (gpu_same threads.length) schedule
  by_cases hi : i < threads.length
  · have h := hrun.result ⟨i, hi⟩ r hr
    refine ⟨fun itemid x ht hx => ?_, fun itemid ht hx => ?_, fun ht => h none ht⟩
    · rw [h _ ht]
      simp only [gpuHostNorm, hx]
      rfl
    · rw [h _ ht]
      simp only [gpuHostNorm, hx]
      rfl
  · have := List.getElem?_eq_none (Nat.le_of_not_lt hi)
    rw [this]
    exact ⟨fun _ _ h => (by cases h), fun _ h => (by cases h), fun h => (by cases h)⟩

/-- Two threads after a first call. -/
example :
    let norms : List (Vec 1 Rat) → List Rat := fun t => t.map fun v => |v 0|
    let start : Proc (GpuShared 1 Rat) _ := ⟨⟨[![1], ![-2]], some [1, 2], some [1, 2], [], none, 0⟩,
      [gpuSimilarNormsProg norms 1, gpuSimilarNormsProg norms 0]⟩
    let finish := start.run [0, 1, 0, 1, 0, 1]
    finish.result 0 = some (.ok ([1, 2], 2)) ∧ finish.result 1 = some (.ok ([1, 2], 1)) := by
  decide +kernel

/-- How much of the pool a thread holds, and the results it can end with. -/
inductive PoolStage (maxMem : Nat) (args : Nat × Nat × Nat × Nat) : GpuThread f R Nat → Nat → Prop
  | start : PoolStage maxMem args (gpuPoolProg maxMem args.1 args.2.1 args.2.2.1 args.2.2.2) 0
  | held (need batch : Nat) (h : gpuBatchSize maxMem args.1 args.2.1 args.2.2.1 args.2.2.2 = .ok batch) :
      PoolStage maxMem args ((Prog.write fun s => { s with used := s.used - need }).bind fun _ => .done (.ok batch)) need
  | done (r : Except Err Nat) (h : r = gpuBatchSize maxMem args.1 args.2.1 args.2.2.1 args.2.2.2 ∨ r = .error .runtimeError) :
      PoolStage maxMem args (.done r) 0

theorem PoolStage.next {maxMem : Nat} {args : Nat × Nat × Nat × Nat} {ready : GpuShared f R → Bool}
    {act : GpuShared f R → GpuShared f R} {next : GpuShared f R → GpuThread f R Nat} {n : Nat}
    (h : PoolStage maxMem args (.step ready act next) n) (s : GpuShared f R) (hn : n ≤ s.used) (hs : s.used ≤ maxMem) :
    ∃ n', PoolStage maxMem args (next s) n' ∧ (act s).used + n = s.used + n' ∧ (act s).used ≤ maxMem := by
  generalize hp : Prog.step ready act next = p at h
  cases h with
  | start =>
    unfold gpuPoolProg at hp
    cases hb : gpuBatchSize maxMem args.1 args.2.1 args.2.2.1 args.2.2.2 with
    | error e => rw [hb] at hp; cases hp
    | ok batch =>
      rw [hb] at hp
      simp only [Prog.atomic, Prog.andThen, Prog.bind] at hp
      cases hp
      simp only
      split_ifs with hm
      · exact ⟨0, .done _ (.inr rfl), rfl, hs⟩
      · exact ⟨_, .held _ batch hb, by show s.used + _ + 0 = _; omega, by show s.used + _ ≤ _; omega⟩
  | held need batch hb =>
    simp only [Prog.write, Prog.bind] at hp
    cases hp
    exact ⟨0, .done _ (.inl hb.symm), by show s.used - n + n = s.used + 0; omega, by show s.used - n ≤ _; omega⟩
  | done r hr => cases hp

/-- What holds of the pool while any number of calls run. -/
def PoolInv (maxMem : Nat) (calls : List (Nat × Nat × Nat × Nat)) (c : Proc (GpuShared f R) (Except Err Nat)) : Prop :=
  ∃ owes : List Nat, c.threads.length = calls.length ∧ owes.length = calls.length ∧
    (∀ (i : Nat) (args : Nat × Nat × Nat × Nat) (p : GpuThread f R Nat) (n : Nat), calls[i]? = some args → c.threads[i]? = some p →
      owes[i]? = some n → PoolStage maxMem args p n) ∧
    c.state.used = owes.sum ∧ c.state.used ≤ maxMem

theorem sum_set : ∀ (l : List Nat) (i a b : Nat), l[i]? = some a → (l.set i b).sum + a = l.sum + b
  | [], _, _, _, h => by simp at h
  | x :: xs, 0, a, b, h => by
    simp at h
    subst h
    simp [Nat.add_comm, Nat.add_left_comm]
  | x :: xs, i + 1, a, b, h => by
    have := sum_set xs i a b (by simpa using h)
    simp only [List.set_cons_succ, List.sum_cons]
    omega

theorem le_sum_of_get : ∀ (l : List Nat) (i a : Nat), l[i]? = some a → a ≤ l.sum
  | [], _, _, h => by simp at h
  | x :: xs, 0, a, h => by
    simp at h
    subst h
    simp
  | x :: xs, i + 1, a, h => by
    have := le_sum_of_get xs i a (by simpa using h)
    simp only [List.sum_cons]
    omega

theorem PoolInv.step {maxMem : Nat} {calls : List (Nat × Nat × Nat × Nat)} {c : Proc (GpuShared f R) (Except Err Nat)}
    (h : PoolInv maxMem calls c) (j : Nat) : PoolInv maxMem calls (c.step j) := by
  unfold Proc.step
  split
  · rename_i ready act next hj
    split_ifs with hr
    · obtain ⟨owes, hlen, hlo, hst, hsum, hle⟩ := h
      have hjl := (List.getElem?_eq_some_iff.mp hj).1
      have hjo : owes[j]? = some (owes[j]'(by omega)) := List.getElem?_eq_getElem _
      have hjc : calls[j]? = some (calls[j]'(by omega)) := List.getElem?_eq_getElem _
      obtain ⟨n', hst', hu, hle'⟩ := (hst j _ _ _ hjc hj hjo).next c.state (by rw [hsum]; exact le_sum_of_get _ _ _ hjo) hle
      refine ⟨owes.set j n', by simpa using hlen, by simpa using hlo, fun i args p n hi hp hn => ?_, ?_, hle'⟩
      · by_cases hij : i = j
        · subst hij
          rw [List.getElem?_set_self hjl] at hp
          rw [List.getElem?_set_self (by omega)] at hn
          rw [hjc] at hi
          cases hp
          cases hn
          cases hi
          exact hst'
        · rw [List.getElem?_set_ne (by omega)] at hp hn
          exact hst i args p n hi hp hn
      · have := sum_set owes j _ n' hjo
        show (act c.state).used = _
        omega
    · exact h
  · exact h

/-- **C72** (GPU, memory).  For any calls of `topk` on one model by any number of threads and any schedule: the pool is never
overdrawn, a call that is finished has returned what its batch size makes it return alone or has raised because the pool was full,
and when all calls are finished all memory is back in the pool. -/
theorem C72_gpu_memory (maxMem : Nat) (item : List (Vec f R)) (calls : List (Nat × Nat × Nat × Nat)) (schedule : List Nat) :
    let c := Proc.run (S := GpuShared f R) ⟨.cold item, calls.map fun a => gpuPoolProg maxMem a.1 a.2.1 a.2.2.1 a.2.2.2⟩ schedule
    c.state.used ≤ maxMem ∧
    (∀ (i : Nat) (a : Nat × Nat × Nat × Nat) (r : Except Err Nat), calls[i]? = some a → c.result i = some r →
      r = gpuBatchSize maxMem a.1 a.2.1 a.2.2.1 a.2.2.2 ∨ r = .error .runtimeError) ∧
    (c.finished = true → c.state.used = 0) := by
  intro c
  have h0 : PoolInv maxMem calls (⟨.cold item, calls.map fun a => gpuPoolProg maxMem a.1 a.2.1 a.2.2.1 a.2.2.2⟩ :
      Proc (GpuShared f R) (Except Err Nat)) := by
    refine ⟨List.replicate calls.length 0, by simp, by simp, fun i args p n hi hp hn => ?_, by simp [GpuShared.cold], Nat.zero_le _⟩
    simp only [List.getElem?_map, hi, Option.map_some, Option.some.injEq] at hp
    have : n = 0 := by
      have := List.mem_of_getElem? hn
      simpa using (List.mem_replicate.mp this).2
    subst hp this
    exact .start
  have hrun : PoolInv maxMem calls c := by
    have : ∀ (sch : List Nat) (c : Proc (GpuShared f R) (Except Err Nat)), PoolInv maxMem calls c → PoolInv maxMem calls (c.run sch) := by
      intro sch
      induction sch with
      | nil => exact fun _ h => h
      | cons j js ih => exact fun c h => ih _ (h.step j)
    exact this schedule _ h0
  obtain ⟨owes, hlen, hlo, hst, hsum, hle⟩ := hrun
  refine ⟨hle, fun i a r hi hr => ?_, fun hfin => ?_⟩
  · unfold Proc.result at hr
    have hil := (List.getElem?_eq_some_iff.mp hi).1
    have hp := List.getElem?_eq_getElem (l := c.threads) (i := i) (by omega)
    rw [hp] at hr
    obtain ⟨n, hn⟩ : ∃ n, owes[i]? = some n := ⟨_, List.getElem?_eq_getElem (by omega)⟩
    have hs := hst i a _ n hi hp hn
    clear hn
    generalize c.threads[i] = p at hs hr
    cases p with
    | step _ _ _ => cases hr
    | done r' =>
      have : r' = r := by simpa [Prog.value?] using hr
      subst this
      generalize hq : (Prog.done r' : GpuThread f R Nat) = q at hs
      cases hs with
      | start =>
        unfold gpuPoolProg at hq
        cases hb : gpuBatchSize maxMem a.1 a.2.1 a.2.2.1 a.2.2.2 with
        | error e => rw [hb] at hq; cases hq; exact .inl rfl
        | ok batch => rw [hb] at hq; cases hq
      | held _ _ _ => cases hq
      | done _ h => cases hq; exact h
  · rw [hsum]
    rw [List.sum_eq_zero_iff_forall_eq_nat]
    intro n hn
    obtain ⟨i, hi, hni⟩ := List.getElem_of_mem hn
    have hp := List.getElem?_eq_getElem (l := c.threads) (i := i) (by omega)
    have hs := hst i _ _ n (List.getElem?_eq_getElem (by omega)) hp (by rw [List.getElem?_eq_getElem hi, hni])
    clear hni
    have hv := List.all_eq_true.mp hfin _ (List.getElem_mem (l := c.threads) (n := i) (by omega))
    generalize c.threads[i] = p at hs hv
    cases hs with
    | start => rfl
    | held _ _ _ => cases hv
    | done _ _ => rfl

example :
    let call : GpuThread 1 Rat Nat := gpuPoolProg 8192 4 100 10 1
    let start : Proc (GpuShared 1 Rat) _ := ⟨.cold [], [call, call]⟩
    (start.run [0]).state.used = 4800 ∧ (start.run [0, 0, 1]).state.used = 4800 ∧ (start.run [0, 0, 1, 1]).state.used = 0 ∧
      (start.run [0, 0, 1, 1]).result 1 = some (.ok 100) := by
  decide +kernel

end Implicit
