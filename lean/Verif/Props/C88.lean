import Verif.Lemmas.FairChoice
import Verif.Props.C30
import Verif.Props.C31
/-!
# C88 — Splits are drawn fairly
-/

set_option linter.unusedSectionVars false

namespace Implicit

open Finset

variable {R : Type} [LinearOrder R] [Field R] [IsStrictOrderedRing R] {Gen : Type}

/-! ## `leave_k_out_split` -/

/-- The process when the global generator gives `d`. -/
def withDraws (P : Process R Gen) {n : Nat} (d : Fin n → R) : Process R Gen :=
  { P with globalRandom := fun _ => List.ofFn d }

theorem checkRandomState_withDraws (I : RngImpl R Gen) (P : Process R Gen) (rs : RandomState Gen) {n : Nat}
    (d : Fin n → R) : checkRandomState I (withDraws P d) rs = checkRandomState I P rs := by
  cases rs <;> rfl

/-- The place of a rating among the draws, as a permutation. -/
theorem drawOf_perm (A : ArgSortIdx Nat) (ratings : List (Nat × Nat × R)) (hnd : ratings.Nodup) :
    ∃ pos : Equiv.Perm (Fin ratings.length), ∀ i, (pos i : Nat) = drawOf A ratings ratings[i] := by
  have hperm := A.perm (ratings.map Prod.fst)
  rw [List.length_map] at hperm
  set idx := A.idx (ratings.map Prod.fst) with hidx
  have hlen : idx.length = ratings.length := by simpa using hperm.length_eq
  have hidxnd : idx.Nodup := hperm.nodup_iff.mpr List.nodup_range
  have hmem : ∀ i : Fin ratings.length, (i : Nat) ∈ idx := fun i =>
    hperm.mem_iff.mpr (List.mem_range.mpr i.2)
  have hlt : ∀ i : Fin ratings.length, idx.idxOf (i : Nat) < ratings.length := fun i => by
    have := List.idxOf_lt_length_iff.mpr (hmem i)
    omega
  have hinj : Function.Injective fun i : Fin ratings.length => (⟨idx.idxOf (i : Nat), hlt i⟩ : Fin ratings.length) := by
    intro i j hij
    have h := Fin.mk.inj hij
    have h1 := List.getElem_idxOf (List.idxOf_lt_length_iff.mpr (hmem i))
    have h2 := List.getElem_idxOf (List.idxOf_lt_length_iff.mpr (hmem j))
    apply Fin.ext
    rw [← h1, ← h2]
    congr 1
  refine ⟨Equiv.ofBijective _ (Finite.injective_iff_bijective.mp hinj), fun i => ?_⟩
  show idx.idxOf (i : Nat) = _
  unfold drawOf
  rw [← hidx]
  congr 1
  exact (hnd.idxOf_getElem i i.2).symm

/-- The assumptions about the data and the call. -/
structure LeaveCall [FloorSemiring R] (I : RngImpl R Gen) (P : Process R Gen) (X : Ratings R) (K : Nat)
    (trainOnly : R) (rs : RandomState Gen) (reserved : List Nat) : Prop where
  cells : (X.entries.map fun e => (e.1, e.2.1)).Nodup
  rows : ∀ e ∈ X.entries, e.1 < X.nrows
  positive : 1 ≤ K
  low : 0 ≤ trainOnly
  high : trainOnly < 1
  reserve : ∃ g, checkRandomState I P rs = .ok g ∧ (if 0 < trainOnly then choosePositions I g
    ((X.entries.map Prod.fst).dedup.insertionSort (· ≤ ·)).length trainOnly else .ok []) = .ok reserved

/-- The split with draws `d` holds out exactly the cells of `S`. -/
def HoldsOut [FloorSemiring R] (I : RngImpl R Gen) (A : ArgSortIdx Nat) (B : ArgSortIdx R) (fl : R → R)
    (P : Process R Gen) (X : Ratings R) (K : Nat) (trainOnly : R) (rs : RandomState Gen) {n : Nat}
    (d : Fin n → R) (S : Finset (Nat × Nat)) : Prop :=
  ∃ train test, leaveKOutSplit I A B fl (withDraws P d) X K trainOnly rs = .ok (train, test) ∧
    Spec.Stores X.nrows test.rows S

/-- What one call does, in terms of positions among the ratings of eligible users. -/
theorem held_positions [FloorSemiring R] (I : RngImpl R Gen) (A : ArgSortIdx Nat) (B : ArgSortIdx R) (fl : R → R)
    (P : Process R Gen) (X : Ratings R) (K : Nat) (trainOnly : R) (rs : RandomState Gen) (reserved : List Nat)
    (h : LeaveCall I P X K trainOnly rs reserved) (ratings : List (Nat × Nat × R))
    (hratings : Spec.eligibleRatings X.entries K reserved = ratings)
    (pos : Equiv.Perm (Fin ratings.length)) (hpos : ∀ i, (pos i : Nat) = drawOf A ratings ratings[i])
    (d : Fin ratings.length → R) (hd : Spec.KeysApart fl (X.entries.map Prod.fst) (List.ofFn d)) :
    ∃ held : Finset (Fin ratings.length),
      HeldBy (fun i => (ratings[i]).1) K (fun i => fl (((ratings[i]).1 : R) + d (pos i))) held ∧
      ∃ train test, leaveKOutSplit I A B fl (withDraws P d) X K trainOnly rs = .ok (train, test) ∧
        Spec.Stores X.nrows test.rows (held.image fun i => ((ratings[i]).1, (ratings[i]).2.1)) := by
  classical
  obtain ⟨g, hg, hres⟩ := h.reserve
  obtain ⟨train, test, hrun, -, -, h4, h5, -, h7, -, h9⟩ := leaveKOut_split I A B fl (withDraws P d) X K reserved
    (fun m hm => ⟨by rw [hm, hratings]; exact List.length_ofFn, hd⟩) h.cells h.rows h.positive trainOnly h.low h.high rs g
    (by rw [checkRandomState_withDraws]; exact hg) hres
  have hmem : ∀ e, e ∈ ratings ↔ e ∈ X.entries ∧ Spec.Eligible X.entries K reserved e.1 := by
    intro e
    rw [← hratings]
    unfold Spec.eligibleRatings Spec.Eligible
    rw [List.mem_filter]
    simp
  have hin : ∀ i : Fin ratings.length, ratings[i] ∈ ratings := fun i => List.getElem_mem i.2
  have hnd : ratings.Nodup := hratings ▸ (List.Nodup.of_map _ h.cells).sublist List.filter_sublist
  have hcell : ∀ e e' : Nat × Nat × R, e ∈ X.entries → e' ∈ X.entries → e.1 = e'.1 → e.2.1 = e'.2.1 →
      e = e' := fun e e' a b h1 h2 => List.inj_on_of_nodup_map h.cells a b (Prod.ext h1 h2)
  have hidx : ∀ e ∈ ratings, ∃ i : Fin ratings.length, ratings[i] = e := by
    intro e he
    obtain ⟨i, hi, rfl⟩ := List.mem_iff_getElem.mp he
    exact ⟨⟨i, hi⟩, rfl⟩
  let held : Finset (Fin ratings.length) :=
    univ.filter fun i => Spec.StoredAt test.rows (ratings[i]).1 (ratings[i]).2.1
  have hheld : ∀ i, i ∈ held ↔ Spec.StoredAt test.rows (ratings[i]).1 (ratings[i]).2.1 := fun i => by
    simp only [held, mem_filter, mem_univ, true_and]
  refine ⟨held, ⟨?_, ?_⟩, train, test, hrun, ?_⟩
  · rintro v ⟨i, rfl⟩
    obtain ⟨hiX, hiE⟩ := (hmem _).mp (hin i)
    obtain ⟨hl, hlnd, hlen, hlsub, hst⟩ := h4 _ hiE
    refine Eq.trans ?_ ((List.toFinset_card_of_nodup hlnd).trans hlen)
    refine card_bij (fun j _ => ratings[j]) ?_ ?_ ?_
    · intro j hj
      obtain ⟨hj1, hj2⟩ := mem_filter.mp hj
      have hs := (hheld j).mp hj1
      beta_reduce at hj2
      rw [hj2] at hs
      obtain ⟨e, he, hec⟩ := (hst _).mp hs
      rw [List.mem_toFinset, hcell ratings[j] e ((hmem _).mp (hin j)).1 (hlsub e he).1
        (hj2.trans (hlsub e he).2.symm) hec.symm]
      exact he
    · intro a _ b _ hab
      exact Fin.ext ((List.Nodup.getElem_inj_iff hnd).mp hab)
    · intro e he
      rw [List.mem_toFinset] at he
      obtain ⟨he1, he2⟩ := hlsub e he
      obtain ⟨j, hj⟩ := hidx e ((hmem e).mpr ⟨he1, by rw [he2]; exact hiE⟩)
      refine ⟨j, mem_filter.mpr ⟨(hheld j).mpr ?_, by beta_reduce; rw [hj, he2]⟩, hj⟩
      rw [hj, he2]
      exact (hst _).mpr ⟨e, he, rfl⟩
  · intro i hi j hj hij
    obtain ⟨hiX, hiE⟩ := (hmem _).mp (hin i)
    obtain ⟨hjX, -⟩ := (hmem _).mp (hin j)
    have hkey := h9 _ hiX _ hjX hij ((hheld i).mp hi) hiE fun hs => hj ((hheld j).mpr hs)
    dsimp only at hkey
    have hval : ∀ k : Fin ratings.length, ((withDraws P d).globalRandom ratings.length).getD (drawOf A ratings ratings[k]) 0 =
        d (pos k) := by
      intro k
      rw [← hpos k]
      show (List.ofFn d).getD _ 0 = _
      rw [List.getD_eq_getElem?_getD, List.getElem?_eq_getElem (by rw [List.length_ofFn]; exact (pos k).2),
        Option.getD_some, List.getElem_ofFn]
    rw [hratings, hval i, hval j] at hkey
    beta_reduce at hij ⊢
    rw [← hij]
    exact hkey
  · intro r c hr
    rw [mem_image]
    constructor
    · intro hs
      obtain ⟨v, hv⟩ := h7 r c hr (Or.inr hs)
      have hel : Spec.Eligible X.entries K reserved r := by
        by_contra hne
        exact h5 r c hr hne hs
      obtain ⟨j, hj⟩ := hidx (r, c, v) ((hmem _).mpr ⟨hv, hel⟩)
      exact ⟨j, (hheld j).mpr (by rw [hj]; exact hs), by rw [hj]⟩
    · rintro ⟨j, hj, hjrc⟩
      have := (hheld j).mp hj
      obtain ⟨rfl, rfl⟩ := Prod.mk.inj hjrc
      exact this

/-- The positions held, for draws from `V`. -/
theorem held_function [FloorSemiring R] (I : RngImpl R Gen) (A : ArgSortIdx Nat) (B : ArgSortIdx R) (fl : R → R)
    (P : Process R Gen) (X : Ratings R) (K : Nat) (trainOnly : R) (rs : RandomState Gen) (reserved : List Nat)
    (h : LeaveCall I P X K trainOnly rs reserved) (V : Finset R)
    (hV : Spec.KeysApart fl (X.entries.map Prod.fst) V.toList) (ratings : List (Nat × Nat × R))
    (hratings : Spec.eligibleRatings X.entries K reserved = ratings)
    (pos : Equiv.Perm (Fin ratings.length)) (hpos : ∀ i, (pos i : Nat) = drawOf A ratings ratings[i]) :
    ∃ held : (Fin ratings.length → R) → Finset (Fin ratings.length), ∀ d, (∀ i, d i ∈ V) →
      HeldBy (fun i => (ratings[i]).1) K (fun i => fl (((ratings[i]).1 : R) + d (pos i))) (held d) ∧
      ∃ train test, leaveKOutSplit I A B fl (withDraws P d) X K trainOnly rs = .ok (train, test) ∧
        Spec.Stores X.nrows test.rows ((held d).image fun i => ((ratings[i]).1, (ratings[i]).2.1)) := by
  classical
  have hone : ∀ d : Fin ratings.length → R, ∃ held, (∀ i, d i ∈ V) →
      HeldBy (fun i => (ratings[i]).1) K (fun i => fl (((ratings[i]).1 : R) + d (pos i))) held ∧
      ∃ train test, leaveKOutSplit I A B fl (withDraws P d) X K trainOnly rs = .ok (train, test) ∧
        Spec.Stores X.nrows test.rows (held.image fun i => ((ratings[i]).1, (ratings[i]).2.1)) := by
    intro d
    by_cases hd : ∀ i, d i ∈ V
    · obtain ⟨held, h1⟩ := held_positions I A B fl P X K trainOnly rs reserved h ratings hratings pos hpos d
        (fun u hu v hv huv r hr r' hr' => by
          obtain ⟨i, rfl⟩ := (List.mem_ofFn' _ _).mp hr
          obtain ⟨j, rfl⟩ := (List.mem_ofFn' _ _).mp hr'
          exact hV u hu v hv huv _ (mem_toList.mpr (hd i)) _ (mem_toList.mpr (hd j)))
      exact ⟨held, fun _ => h1⟩
    · exact ⟨∅, fun hc => absurd hc hd⟩
  choose held hheld using hone
  exact ⟨held, hheld⟩

/-- The facts about the ratings of eligible users that the counting needs. -/
theorem ratings_facts (entries : List (Nat × Nat × R)) (hnd : (entries.map fun e => (e.1, e.2.1)).Nodup) (K : Nat)
    (reserved : List Nat) (ratings : List (Nat × Nat × R))
    (hratings : Spec.eligibleRatings entries K reserved = ratings) :
    ratings.Nodup ∧ (∀ e, e ∈ ratings ↔ e ∈ entries ∧ Spec.Eligible entries K reserved e.1) ∧
      Function.Injective fun i : Fin ratings.length => ((ratings[i]).1, (ratings[i]).2.1) := by
  have h1 : ratings.Nodup := hratings ▸ (List.Nodup.of_map _ hnd).sublist List.filter_sublist
  have h2 : ∀ e, e ∈ ratings ↔ e ∈ entries ∧ Spec.Eligible entries K reserved e.1 := by
    intro e
    rw [← hratings]
    unfold Spec.eligibleRatings Spec.Eligible
    rw [List.mem_filter]
    simp
  refine ⟨h1, h2, fun i j hij => ?_⟩
  have := List.inj_on_of_nodup_map hnd ((h2 _).mp (List.getElem_mem i.2)).1
    ((h2 _).mp (List.getElem_mem j.2)).1 hij
  exact Fin.ext ((List.Nodup.getElem_inj_iff h1).mp this)

theorem noTies_clear (fl : R → R) (users : List Nat) (ratings : List (Nat × Nat × R))
    (hu : ∀ e ∈ ratings, e.1 ∈ users) (pos : Equiv.Perm (Fin ratings.length)) (d : Fin ratings.length → R)
    (hd : Spec.NoTiedKeys fl users d) (i j : Fin ratings.length) (hij : (ratings[i]).1 = (ratings[j]).1)
    (h : fl (((ratings[i]).1 : R) + d (pos i)) = fl (((ratings[j]).1 : R) + d (pos j))) : i = j := by
  rw [← hij] at h
  exact pos.injective (hd _ (hu _ (List.getElem_mem i.2)) h)

theorem noTies_perm (fl : R → R) (users : List Nat) {n : Nat} (d : Fin n → R) (σ : Equiv.Perm (Fin n))
    (hd : Spec.NoTiedKeys fl users d) : Spec.NoTiedKeys fl users (d ∘ σ) :=
  fun u hu => (hd u hu).comp σ.injective

section Counting
open Classical

/-- **C88** for `leave_k_out_split`.  If no sort keys tie, every way to choose `K` ratings of each eligible user is held out
for the same number of outcomes of the draws: the held-out set of every user is uniform, and independent of
those of the others.  (`C31_keys_exact` and `C31_keys_float` give the condition on `V`.) -/
theorem C88_leave_k_out [FloorSemiring R] (I : RngImpl R Gen) (A : ArgSortIdx Nat) (B : ArgSortIdx R) (fl : R → R)
    (P : Process R Gen) (X : Ratings R) (K : Nat) (trainOnly : R) (rs : RandomState Gen) (reserved : List Nat)
    (h : LeaveCall I P X K trainOnly rs reserved) (V : Finset R)
    (hV : Spec.KeysApart fl (X.entries.map Prod.fst) V.toList) (n : Nat)
    (hn : (Spec.eligibleRatings X.entries K reserved).length = n) (S T : Finset (Nat × Nat))
    (hS : Spec.IsChoice X.entries (Spec.Eligible X.entries K reserved) K S)
    (hT : Spec.IsChoice X.entries (Spec.Eligible X.entries K reserved) K T) :
    ((Spec.clearDraws V (Spec.NoTiedKeys fl (X.entries.map Prod.fst) (n := n))).filter fun d =>
        HoldsOut I A B fl P X K trainOnly rs d S).card =
      ((Spec.clearDraws V (Spec.NoTiedKeys fl (X.entries.map Prod.fst) (n := n))).filter fun d =>
        HoldsOut I A B fl P X K trainOnly rs d T).card := by
  obtain ⟨ratings, hratings⟩ : ∃ ratings, Spec.eligibleRatings X.entries K reserved = ratings := ⟨_, rfl⟩
  rw [hratings] at hn
  subst hn
  obtain ⟨hrnd, hmem, hinj⟩ := ratings_facts X.entries h.cells K reserved ratings hratings
  obtain ⟨pos, hpos⟩ := drawOf_perm A ratings hrnd
  obtain ⟨held, hheld⟩ := held_function I A B fl P X K trainOnly rs reserved h V hV ratings hratings pos hpos
  set cellOf : Fin ratings.length → Nat × Nat := fun i => ((ratings[i]).1, (ratings[i]).2.1) with hcellOf
  have hin : ∀ i : Fin ratings.length, ratings[i] ∈ ratings := fun i => List.getElem_mem i.2
  -- choices as sets of positions
  have hchoice : ∀ U, Spec.IsChoice X.entries (Spec.Eligible X.entries K reserved) K U →
      (univ.filter fun i => cellOf i ∈ U).image cellOf = U ∧
      ∀ v, (∃ i : Fin ratings.length, (ratings[i]).1 = v) →
        ((univ.filter fun i => cellOf i ∈ U).filter fun i => (ratings[i]).1 = v).card = K := by
    intro U hU
    have himg : (univ.filter fun i => cellOf i ∈ U).image cellOf = U := by
      ext rc
      rw [mem_image]
      constructor
      · rintro ⟨i, hi, rfl⟩
        exact (mem_filter.mp hi).2
      · intro hrc
        obtain ⟨hel, e, he, rfl⟩ := hU.rated rc hrc
        obtain ⟨i, hi, hie⟩ := List.mem_iff_getElem.mp ((hmem e).mpr ⟨he, hel⟩)
        have hc : cellOf ⟨i, hi⟩ = (e.1, e.2.1) := by
          show ((ratings[i]).1, (ratings[i]).2.1) = _
          rw [hie]
        exact ⟨⟨i, hi⟩, mem_filter.mpr ⟨mem_univ _, by rw [hc]; exact hrc⟩, hc⟩
    refine ⟨himg, ?_⟩
    rintro v ⟨i, rfl⟩
    rw [← hU.each _ ((hmem _).mp (hin i)).2]
    conv_rhs => rw [← himg, filter_image, card_image_of_injective _ hinj]
  -- the outcome in terms of positions
  have hiff : ∀ U, Spec.IsChoice X.entries (Spec.Eligible X.entries K reserved) K U →
      ∀ d, (∀ i, d i ∈ V) → (HoldsOut I A B fl P X K trainOnly rs d U ↔ held d = univ.filter fun i => cellOf i ∈ U) := by
    intro U hU d hd
    obtain ⟨-, train, test, hrun, hst⟩ := hheld d hd
    constructor
    · rintro ⟨train', test', hrun', hst'⟩
      rw [hrun] at hrun'
      obtain ⟨rfl, rfl⟩ := Prod.mk.inj (Except.ok.inj hrun')
      ext i
      have hr : (ratings[i]).1 < X.nrows := h.rows _ ((hmem _).mp (hin i)).1
      have h1 := (hst _ (ratings[i]).2.1 hr).symm.trans (hst' _ (ratings[i]).2.1 hr)
      rw [mem_filter]
      constructor
      · intro hi
        exact ⟨mem_univ _, h1.mp (mem_image_of_mem _ hi)⟩
      · rintro ⟨-, hi⟩
        obtain ⟨j, hj, hji⟩ := mem_image.mp (h1.mpr hi)
        exact hinj hji ▸ hj
    · intro heq
      refine ⟨train, test, hrun, ?_⟩
      rw [heq] at hst
      have e := (hchoice U hU).1
      intro r c hr
      rw [← e]
      exact hst r c hr
  have hfilter : ∀ U, Spec.IsChoice X.entries (Spec.Eligible X.entries K reserved) K U →
      ((Spec.clearDraws V (Spec.NoTiedKeys fl (X.entries.map Prod.fst) (n := ratings.length))).filter fun d =>
        HoldsOut I A B fl P X K trainOnly rs d U) =
      (Spec.clearDraws V (Spec.NoTiedKeys fl (X.entries.map Prod.fst) (n := ratings.length))).filter fun d =>
        held d = univ.filter fun i => cellOf i ∈ U := fun U hU =>
    filter_congr fun d hd => hiff U hU d (mem_clearDraws.mp hd).1
  rw [hfilter S hS, hfilter T hT]
  refine Eq.trans ?_ (Eq.trans (fair_choice (group := fun i => (ratings[i]).1) (K := K) (key := fun u r => fl ((u : R) + r)) (pos := pos)
    (V := V) (ok := Spec.NoTiedKeys fl (X.entries.map Prod.fst)) (held := held)
    (fun d hd i j => noTies_clear fl _ ratings (fun e he => List.mem_map_of_mem ((hmem e).mp he).1) pos d hd i j)
    (fun d σ hd => noTies_perm fl _ d σ hd)
    (fun d hd => (hheld d (mem_clearDraws.mp hd).1).1) _ _ (hchoice S hS).2 (hchoice T hT).2) ?_)
  · congr 1
  · congr 1

/-- **C88**: of an eligible user with `c` ratings, each is held out in `K` of `c` cases. -/
theorem C88_each_rating [FloorSemiring R] (I : RngImpl R Gen) (A : ArgSortIdx Nat) (B : ArgSortIdx R) (fl : R → R)
    (P : Process R Gen) (X : Ratings R) (K : Nat) (trainOnly : R) (rs : RandomState Gen) (reserved : List Nat)
    (h : LeaveCall I P X K trainOnly rs reserved) (V : Finset R)
    (hV : Spec.KeysApart fl (X.entries.map Prod.fst) V.toList) (n : Nat)
    (hn : (Spec.eligibleRatings X.entries K reserved).length = n) (e : Nat × Nat × R) (he : e ∈ X.entries)
    (hel : Spec.Eligible X.entries K reserved e.1) :
    (X.entries.filter fun e' => e'.1 = e.1).length *
        ((Spec.clearDraws V (Spec.NoTiedKeys fl (X.entries.map Prod.fst) (n := n))).filter fun d =>
          ∃ train test, leaveKOutSplit I A B fl (withDraws P d) X K trainOnly rs = .ok (train, test) ∧
            Spec.StoredAt test.rows e.1 e.2.1).card =
      K * (Spec.clearDraws V (Spec.NoTiedKeys fl (X.entries.map Prod.fst) (n := n))).card := by
  obtain ⟨ratings, hratings⟩ : ∃ ratings, Spec.eligibleRatings X.entries K reserved = ratings := ⟨_, rfl⟩
  rw [hratings] at hn
  subst hn
  obtain ⟨hrnd, hmem, hinj⟩ := ratings_facts X.entries h.cells K reserved ratings hratings
  obtain ⟨pos, hpos⟩ := drawOf_perm A ratings hrnd
  obtain ⟨held, hheld⟩ := held_function I A B fl P X K trainOnly rs reserved h V hV ratings hratings pos hpos
  obtain ⟨i, hi, hie⟩ := List.mem_iff_getElem.mp ((hmem e).mpr ⟨he, hel⟩)
  have hfair := fair_each (group := fun i => (ratings[i]).1) (K := K) (key := fun u r => fl ((u : R) + r)) (pos := pos)
    (V := V) (ok := Spec.NoTiedKeys fl (X.entries.map Prod.fst)) (held := held)
    (fun d hd i j => noTies_clear fl _ ratings (fun e he => List.mem_map_of_mem ((hmem e).mp he).1) pos d hd i j)
    (fun d σ hd => noTies_perm fl _ d σ hd)
    (fun d hd => (hheld d (mem_clearDraws.mp hd).1).1) ⟨i, hi⟩
  have hcount : ((univ : Finset (Fin ratings.length)).filter fun j => (ratings[j]).1 = (ratings[i]).1).card =
      (X.entries.filter fun e' => e'.1 = e.1).length := by
    have hnd' : (X.entries.filter fun e' => e'.1 = e.1).Nodup :=
      (List.Nodup.of_map _ h.cells).sublist List.filter_sublist
    rw [← List.toFinset_card_of_nodup hnd']
    refine card_bij (fun j _ => ratings[j]) ?_ ?_ ?_
    · intro j hj
      rw [List.mem_toFinset, List.mem_filter]
      refine ⟨((hmem _).mp (List.getElem_mem j.2)).1, ?_⟩
      have := (mem_filter.mp hj).2
      rw [hie] at this
      simpa using this
    · intro a _ b _ hab
      exact Fin.ext ((List.Nodup.getElem_inj_iff hrnd).mp hab)
    · intro x hx
      rw [List.mem_toFinset, List.mem_filter] at hx
      have hx2 : x.1 = e.1 := by simpa using hx.2
      obtain ⟨j, hj, hjx⟩ := List.mem_iff_getElem.mp ((hmem x).mpr ⟨hx.1, by rw [hx2]; exact hel⟩)
      refine ⟨⟨j, hj⟩, mem_filter.mpr ⟨mem_univ _, ?_⟩, hjx⟩
      show (ratings[j]).1 = _
      rw [hjx, hie, hx2]
  have hiff : ∀ d ∈ Spec.clearDraws V (Spec.NoTiedKeys fl (X.entries.map Prod.fst) (n := ratings.length)),
      ((∃ train test, leaveKOutSplit I A B fl (withDraws P d) X K trainOnly rs = .ok (train, test) ∧
        Spec.StoredAt test.rows e.1 e.2.1) ↔ (⟨i, hi⟩ : Fin ratings.length) ∈ held d) := by
    intro d hd
    obtain ⟨-, train, test, hrun, hst⟩ := hheld d (mem_clearDraws.mp hd).1
    have h1 := hst e.1 e.2.1 (h.rows e he)
    have hc : (fun j : Fin ratings.length => ((ratings[j]).1, (ratings[j]).2.1)) ⟨i, hi⟩ = (e.1, e.2.1) := by
      show ((ratings[i]).1, (ratings[i]).2.1) = _
      rw [hie]
    constructor
    · rintro ⟨train', test', hrun', hs⟩
      rw [hrun] at hrun'
      obtain ⟨rfl, rfl⟩ := Prod.mk.inj (Except.ok.inj hrun')
      obtain ⟨j, hj, hji⟩ := mem_image.mp (h1.mp hs)
      rw [← hc] at hji
      exact hinj hji ▸ hj
    · intro hj
      refine ⟨train, test, hrun, h1.mpr ?_⟩
      rw [← hc]
      exact mem_image_of_mem _ hj
  rw [← hcount, filter_congr hiff]
  refine Eq.trans ?_ hfair
  congr 1

/-- **C88**, all draws counted.  Different draws of `V` give a user different keys; then any two choices are held out
equally often up to the draws with a repeated value, at most `|V| ^ n - |V| (|V| - 1) ... (|V| - n + 1)` of all
`|V| ^ n`. -/
theorem C88_all_draws [FloorSemiring R] (I : RngImpl R Gen) (A : ArgSortIdx Nat) (B : ArgSortIdx R) (fl : R → R)
    (P : Process R Gen) (X : Ratings R) (K : Nat) (trainOnly : R) (rs : RandomState Gen) (reserved : List Nat)
    (h : LeaveCall I P X K trainOnly rs reserved) (V : Finset R)
    (hV : Spec.KeysApart fl (X.entries.map Prod.fst) V.toList)
    (hVinj : ∀ u ∈ X.entries.map Prod.fst, ∀ r ∈ V, ∀ r' ∈ V, fl ((u : R) + r) = fl ((u : R) + r') → r = r') (n : Nat)
    (hn : (Spec.eligibleRatings X.entries K reserved).length = n) (S T : Finset (Nat × Nat))
    (hS : Spec.IsChoice X.entries (Spec.Eligible X.entries K reserved) K S)
    (hT : Spec.IsChoice X.entries (Spec.Eligible X.entries K reserved) K T) :
    ((Fintype.piFinset fun _ : Fin n => V).filter fun d => HoldsOut I A B fl P X K trainOnly rs d S).card +
        V.card.descFactorial n ≤
      ((Fintype.piFinset fun _ : Fin n => V).filter fun d => HoldsOut I A B fl P X K trainOnly rs d T).card +
        V.card ^ n := by
  set all : Finset (Fin n → R) := Fintype.piFinset fun _ : Fin n => V with hall
  set C := Spec.clearDraws V (Spec.NoTiedKeys fl (X.entries.map Prod.fst) (n := n)) with hC
  have hcard : all.card = V.card ^ n := by
    rw [hall, Fintype.card_piFinset, prod_const, card_univ, Fintype.card_fin]
  have hsub : C ⊆ all := fun d hd => Fintype.mem_piFinset.mpr (mem_clearDraws.mp hd).1
  have hge : V.card.descFactorial n ≤ C.card := by
    rw [← clear_card]
    refine card_le_card fun d hd => ?_
    obtain ⟨h1, h2⟩ := mem_clearDraws.mp hd
    exact mem_clearDraws.mpr ⟨h1, fun u hu i j hij => h2 (hVinj u hu _ (h1 i) _ (h1 j) hij)⟩
  have hfair := C88_leave_k_out I A B fl P X K trainOnly rs reserved h V hV n hn S T hS hT
  rw [← hC] at hfair
  have h1 : (all.filter fun d => HoldsOut I A B fl P X K trainOnly rs d S).card ≤
      (C.filter fun d => HoldsOut I A B fl P X K trainOnly rs d S).card + (all \ C).card := by
    rw [← card_union_of_disjoint (disjoint_left.mpr fun d hd hd' =>
      (mem_sdiff.mp hd').2 (mem_filter.mp hd).1)]
    refine card_le_card fun d hd => ?_
    obtain ⟨hd1, hd2⟩ := mem_filter.mp hd
    by_cases hdC : d ∈ C
    · exact mem_union_left _ (mem_filter.mpr ⟨hdC, hd2⟩)
    · exact mem_union_right _ (mem_sdiff.mpr ⟨hd1, hdC⟩)
  have h2 : (C.filter fun d => HoldsOut I A B fl P X K trainOnly rs d T).card ≤
      (all.filter fun d => HoldsOut I A B fl P X K trainOnly rs d T).card :=
    card_le_card (filter_subset_filter _ hsub)
  have h3 := card_sdiff_of_subset hsub
  have h4 := card_le_card hsub
  omega

end Counting

/-! ## `train_test_split` -/

/-- The generator when its next values are `d`. -/
def rngWith (I : RngImpl R Gen) {n : Nat} (d : Fin n → R) : RngImpl R Gen :=
  { I with random := fun _ _ => List.ofFn d }

theorem checkRandomState_rngWith (I : RngImpl R Gen) (P : Process R Gen) (rs : RandomState Gen) {n : Nat}
    (d : Fin n → R) : checkRandomState (rngWith I d) P rs = checkRandomState I P rs := by
  cases rs <;> rfl

theorem mem_trainPart_ofFn (X : Ratings R) (p : R) (d : Fin X.entries.length → R) (hnd : X.entries.Nodup)
    (i : Fin X.entries.length) : X.entries[i] ∈ trainPart X p (List.ofFn d) ↔ d i < p := by
  unfold trainPart
  rw [List.mem_map]
  constructor
  · rintro ⟨m, hm, hmi⟩
    rw [List.mem_filter] at hm
    obtain ⟨j, hj, hjm⟩ := List.mem_iff_getElem.mp hm.1
    rw [List.getElem_zip] at hjm
    have hj' : j < X.entries.length := by
      rw [List.length_zip] at hj
      omega
    rw [← hjm] at hmi
    have hji : j = i := (List.Nodup.getElem_inj_iff hnd).mp hmi
    have h2 := hm.2
    rw [← hjm] at h2
    subst hji
    simpa using h2
  · intro h
    refine ⟨(X.entries[i], d i), List.mem_filter.mpr ⟨?_, by simpa using h⟩, rfl⟩
    refine List.mem_iff_getElem.mpr ⟨i, by simp, ?_⟩
    rw [List.getElem_zip, List.getElem_ofFn]
    rfl

open Classical in
/-- **C88** for `train_test_split`.  Every set `S` of ratings becomes the train matrix for `a ^ |S| (|V| - a) ^ (n - |S|)` of
the `|V| ^ n` outcomes of the draws, `a` the number of values below `train_percentage`: each rating goes to train with
the same probability, independently of the others. -/
theorem C88_train_test (I : RngImpl R Gen) (P : Process R Gen) (X : Ratings R) (p : R) (rs : RandomState Gen) (g : Gen)
    (hg : checkRandomState I P rs = .ok g) (hnd : (X.entries.map fun e => (e.1, e.2.1)).Nodup)
    (hrow : ∀ e ∈ X.entries, e.1 < X.nrows) (V : Finset R) (S : Finset (Nat × Nat))
    (hS : ∀ rc ∈ S, ∃ e ∈ X.entries, (e.1, e.2.1) = rc) :
    ((Fintype.piFinset fun _ : Fin X.entries.length => V).filter fun d => ∃ train test,
        trainTestSplit (rngWith I d) P X p rs = .ok (train, test) ∧ Spec.Stores X.nrows train.rows S).card =
      (V.filter fun r => r < p).card ^ S.card *
        (V.card - (V.filter fun r => r < p).card) ^ (X.entries.length - S.card) := by
  have hXnd : X.entries.Nodup := List.Nodup.of_map _ hnd
  set cellOf : Fin X.entries.length → Nat × Nat := fun i => ((X.entries[i]).1, (X.entries[i]).2.1) with hcellOf
  have hin : ∀ i : Fin X.entries.length, X.entries[i] ∈ X.entries := fun i => List.getElem_mem i.2
  have hinj : Function.Injective cellOf := fun i j hij =>
    Fin.ext ((List.Nodup.getElem_inj_iff hXnd).mp (List.inj_on_of_nodup_map hnd (hin i) (hin j) hij))
  have hSimg : (univ.filter fun i => cellOf i ∈ S).image cellOf = S := by
    ext rc
    rw [mem_image]
    constructor
    · rintro ⟨i, hi, rfl⟩
      exact (mem_filter.mp hi).2
    · intro hrc
      obtain ⟨e, he, rfl⟩ := hS rc hrc
      obtain ⟨i, hi, hie⟩ := List.mem_iff_getElem.mp he
      have hc : cellOf ⟨i, hi⟩ = (e.1, e.2.1) := by
        show ((X.entries[i]).1, (X.entries[i]).2.1) = _
        rw [hie]
      exact ⟨⟨i, hi⟩, mem_filter.mpr ⟨mem_univ _, by rw [hc]; exact hrc⟩, hc⟩
  have hScard : (univ.filter fun i => cellOf i ∈ S).card = S.card := by
    conv_rhs => rw [← hSimg, card_image_of_injective _ hinj]
  -- the outcome
  have hiff : ∀ d : Fin X.entries.length → R, (∃ train test,
      trainTestSplit (rngWith I d) P X p rs = .ok (train, test) ∧ Spec.Stores X.nrows train.rows S) ↔
      ∀ i, d i < p ↔ cellOf i ∈ S := by
    intro d
    have hrun := split_eq (rngWith I d) P X p rs g (by rw [checkRandomState_rngWith]; exact hg)
    have hst : ∀ r c, r < X.nrows → (Spec.StoredAt (X.toCsr (trainPart X p (List.ofFn d))).rows r c ↔
        ∃ i, cellOf i = (r, c) ∧ d i < p) := by
      intro r c hr
      refine (storedAt_cooToCsr X.nrows _ hr c).trans ⟨?_, ?_⟩
      · rintro ⟨v, hv⟩
        obtain ⟨i, hi, hie⟩ := List.mem_iff_getElem.mp (mem_trainPart hv)
        refine ⟨⟨i, hi⟩, ?_, ?_⟩
        · show ((X.entries[i]).1, (X.entries[i]).2.1) = _
          rw [hie]
        · refine (mem_trainPart_ofFn X p d hXnd ⟨i, hi⟩).mp ?_
          show X.entries[i] ∈ _
          rw [hie]
          exact hv
      · rintro ⟨i, hi, hlt⟩
        refine ⟨(X.entries[i]).2.2, ?_⟩
        have := (mem_trainPart_ofFn X p d hXnd i).mpr hlt
        obtain ⟨h1, h2⟩ := Prod.mk.inj hi
        rw [← h1, ← h2]
        exact this
    constructor
    · rintro ⟨train, test, hrun', hs⟩ i
      rw [hrun] at hrun'
      obtain ⟨rfl, rfl⟩ := Prod.mk.inj (Except.ok.inj hrun')
      have h1 := hs (cellOf i).1 (cellOf i).2 (hrow _ (hin i))
      constructor
      · intro hlt
        exact h1.mp ((hst _ _ (hrow _ (hin i))).mpr ⟨i, rfl, hlt⟩)
      · intro hi
        obtain ⟨j, hj, hlt⟩ := (hst _ _ (hrow _ (hin i))).mp (h1.mpr hi)
        rw [← hinj hj]
        exact hlt
    · intro hd
      refine ⟨_, _, hrun, fun r c hr => (hst r c hr).trans ⟨?_, fun hrc => ?_⟩⟩
      · rintro ⟨i, hi, hlt⟩
        rw [← hi]
        exact (hd i).mp hlt
      · rw [← hSimg] at hrc
        obtain ⟨i, hi, hie⟩ := mem_image.mp hrc
        exact ⟨i, hie, (hd i).mpr (mem_filter.mp hi).2⟩
  have hset : ((Fintype.piFinset fun _ : Fin X.entries.length => V).filter fun d => ∃ train test,
      trainTestSplit (rngWith I d) P X p rs = .ok (train, test) ∧ Spec.Stores X.nrows train.rows S) =
      Fintype.piFinset fun i => if cellOf i ∈ S then V.filter fun r => r < p else V.filter fun r => ¬ r < p := by
    ext d
    rw [mem_filter, hiff, Fintype.mem_piFinset, Fintype.mem_piFinset]
    constructor
    · rintro ⟨h1, h2⟩ i
      by_cases hi : cellOf i ∈ S
      · rw [if_pos hi]
        exact mem_filter.mpr ⟨h1 i, (h2 i).mpr hi⟩
      · rw [if_neg hi]
        exact mem_filter.mpr ⟨h1 i, fun hlt => hi ((h2 i).mp hlt)⟩
    · intro hd
      refine ⟨fun i => ?_, fun i => ?_⟩
      · have := hd i
        split_ifs at this <;> exact (mem_filter.mp this).1
      · have := hd i
        split_ifs at this with hi
        · exact ⟨fun _ => hi, fun _ => (mem_filter.mp this).2⟩
        · exact ⟨fun hlt => absurd hlt (mem_filter.mp this).2, fun hc => absurd hc hi⟩
  have hneg : (V.filter fun r => ¬ r < p).card = V.card - (V.filter fun r => r < p).card := by
    have := card_filter_add_card_filter_not (s := V) (fun r => r < p)
    omega
  rw [hset, Fintype.card_piFinset]
  have hprod : ∀ i : Fin X.entries.length,
      (if cellOf i ∈ S then V.filter fun r => r < p else V.filter fun r => ¬ r < p).card =
        if cellOf i ∈ S then (V.filter fun r => r < p).card else V.card - (V.filter fun r => r < p).card := by
    intro i
    split_ifs
    · rfl
    · exact hneg
  have hcompl : (univ.filter fun i => ¬ cellOf i ∈ S).card = X.entries.length - S.card := by
    have := card_filter_add_card_filter_not (s := (univ : Finset (Fin X.entries.length))) (fun i => cellOf i ∈ S)
    rw [card_univ, Fintype.card_fin, hScard] at this
    omega
  rw [prod_congr rfl fun i _ => hprod i, prod_ite, prod_const, prod_const, hScard, hcompl]

/-- The values of numpy's `random()`: multiples of `1 / N` (`N = 2 ^ 53` for `float64`) in [0, 1). -/
def gridValues (N : Nat) : Finset R := (range N).image fun k : Nat => (k : R) / N

theorem gridValues_card (N : Nat) (hN : 0 < N) : (gridValues N : Finset R).card = N := by
  have hpos : (0 : R) < N := by exact_mod_cast hN
  unfold gridValues
  rw [card_image_of_injective, card_range]
  intro a b hab
  have : (a : R) = b := (div_left_inj' hpos.ne').mp hab
  exact_mod_cast this

/-- **C88**: with these values, the probability of train is `train_percentage` up to `1 / N`. -/
theorem C88_train_share (N : Nat) (hN : 0 < N) (p : R) (h0 : 0 ≤ p) (h1 : p ≤ 1) :
    p * N ≤ (((gridValues N : Finset R).filter fun r => r < p).card : R) ∧
      (((gridValues N : Finset R).filter fun r => r < p).card : R) < p * N + 1 := by
  have hpos : (0 : R) < N := by exact_mod_cast hN
  have hinj : Function.Injective fun k : Nat => (k : R) / N := by
    intro a b hab
    have : (a : R) = b := (div_left_inj' hpos.ne').mp hab
    exact_mod_cast this
  have hcard : ((gridValues N : Finset R).filter fun r => r < p).card =
      ((range N).filter fun k : Nat => (k : R) < p * N).card := by
    unfold gridValues
    rw [filter_image, card_image_of_injective _ hinj]
    congr 1
    refine filter_congr fun k _ => ?_
    exact div_lt_iff₀ hpos
  rw [hcard]
  -- the numbers below `p N` are a beginning of the natural numbers
  set c := ((range N).filter fun k : Nat => (k : R) < p * N).card with hc
  have hbegin : ((range N).filter fun k : Nat => (k : R) < p * N) = range c := by
    have hdown : ∀ a b : Nat, a ≤ b → b ∈ ((range N).filter fun k : Nat => (k : R) < p * N) →
        a ∈ ((range N).filter fun k : Nat => (k : R) < p * N) := by
      intro a b hab hb
      obtain ⟨h1, h2⟩ := mem_filter.mp hb
      have : (a : R) ≤ b := by exact_mod_cast hab
      exact mem_filter.mpr ⟨mem_range.mpr (by have := mem_range.mp h1; omega), by linarith⟩
    refine eq_of_subset_of_card_le (fun a ha => ?_) (by rw [card_range])
    rw [mem_range, hc]
    have hsub : range (a + 1) ⊆ ((range N).filter fun k : Nat => (k : R) < p * N) := fun b hb =>
      hdown b a (by have := mem_range.mp hb; omega) ha
    have := card_le_card hsub
    rw [card_range] at this
    omega
  constructor
  · by_contra hcon
    have hlt := not_le.mp hcon
    have hcN : c < N := by
      have : (c : R) < N := by nlinarith
      exact_mod_cast this
    have : c ∈ range c := by
      rw [← hbegin]
      exact mem_filter.mpr ⟨mem_range.mpr hcN, hlt⟩
    simp at this
  · rcases Nat.eq_zero_or_pos c with h | h
    · rw [h]
      push_cast
      have := mul_nonneg h0 hpos.le
      linarith
    · have : c - 1 ∈ range c := mem_range.mpr (by omega)
      rw [← hbegin] at this
      have h2 := (mem_filter.mp this).2
      rw [Nat.cast_sub h] at h2
      push_cast at h2
      linarith

/-! ## Examples -/

/-- Two users with three ratings each and one with a single rating. -/
def fairExample : Ratings Rat :=
  ⟨3, 3, [(0, 0, 1), (0, 1, 2), (0, 2, 3), (1, 0, 4), (1, 1, 5), (1, 2, 6), (2, 1, 8)]⟩

/-- The hypotheses of `C88_all_draws` hold for four values, and the theorem compares two choices. -/
example :
    LeaveCall constRng constProcess fairExample 1 0 (.seed 0) [] ∧
    Spec.KeysApart id (fairExample.entries.map Prod.fst) ((gridValues 4 : Finset Rat).toList) ∧
    Spec.IsChoice fairExample.entries (Spec.Eligible fairExample.entries 1 []) 1 {(0, 0), (1, 2)} ∧
    Spec.IsChoice fairExample.entries (Spec.Eligible fairExample.entries 1 []) 1 {(0, 1), (1, 1)} := by
  have hel : ∀ v, Spec.Eligible fairExample.entries 1 [] v → v = 0 ∨ v = 1 := by
    intro v hv
    have h1 := ((eligible_count _ _ _ _).mp hv).1
    have hmem : v ∈ fairExample.entries.map Prod.fst := List.count_pos_iff.mp (by omega)
    simp only [fairExample, List.map_cons, List.map_nil, List.mem_cons, List.not_mem_nil, or_false] at hmem
    rcases hmem with h | h | h | h | h | h | h
    all_goals first | exact Or.inl h | exact Or.inr h | skip
    subst h
    exact absurd h1 (by decide)
  have h0 : Spec.Eligible fairExample.entries 1 [] 0 := ⟨by decide, by decide⟩
  have h1 : Spec.Eligible fairExample.entries 1 [] 1 := ⟨by decide, by decide⟩
  refine ⟨⟨by decide, by decide, by decide, le_refl _, by norm_num, (), rfl, rfl⟩,
    C31_keys_exact _ _ ?_, ⟨?_, ?_⟩, ⟨?_, ?_⟩⟩
  · intro r hr
    rw [mem_toList] at hr
    obtain ⟨k, hk, rfl⟩ := mem_image.mp hr
    have hk' : (k : Rat) < 4 := by exact_mod_cast mem_range.mp hk
    have hk0 : (0 : Rat) ≤ k := Nat.cast_nonneg k
    constructor
    · positivity
    · rw [div_lt_one (by norm_num)]
      exact_mod_cast hk'
  · intro rc hrc
    simp only [mem_insert, mem_singleton] at hrc
    rcases hrc with rfl | rfl
    · exact ⟨h0, (0, 0, 1), by decide, rfl⟩
    · exact ⟨h1, (1, 2, 6), by decide, rfl⟩
  · intro v hv
    rcases hel v hv with rfl | rfl <;> decide
  · intro rc hrc
    simp only [mem_insert, mem_singleton] at hrc
    rcases hrc with rfl | rfl
    · exact ⟨h0, (0, 1, 2), by decide, rfl⟩
    · exact ⟨h1, (1, 1, 5), by decide, rfl⟩
  · intro v hv
    rcases hel v hv with rfl | rfl <;> decide

/-- Draws that tie are not resolved by chance: with equal draws the sort decides, here for the last rating of each
user.  So the draws with repetitions cannot be left out of `C88_all_draws`. -/
example : leaveKOutSplit constRng (insertionArgSortIdx Nat) (insertionArgSortIdx Rat) id
      (withDraws constProcess fun _ : Fin 6 => 1 / 2) fairExample 1 0 (.seed 0) =
    .ok (⟨3, 3, [[(0, 1), (1, 2)], [(0, 4), (1, 5)], [(1, 8)]]⟩, ⟨3, 3, [[(2, 3)], [(2, 6)], []]⟩) := by
  decide +kernel

/-- A `train_test_split` with three draws. -/
example : trainTestSplit (rngWith constRng (![1 / 4, 3 / 4, 0] : Fin 3 → Rat)) constProcess
    ⟨1, 3, [(0, 0, 1), (0, 1, 2), (0, 2, 3)]⟩ (1 / 2) (.seed 0) =
    .ok (⟨1, 3, [[(0, 1), (2, 3)]]⟩, ⟨1, 3, [[(1, 2)]]⟩) := by
  decide +kernel

end Implicit
