# Design of the formal model of `implicit`

Everything machine-checked lives in `lean/Verif`.  `Verif/Spec/*` holds small
independent specifications, `Verif/Model/*` the functions of the repository
(every definition cites file and lines), `Verif/Lemmas/*` helper lemmas, and
`Verif/Props/*` the property theorems (named `Cxx_...`) together with the
`example`s that show their hypotheses can be met.

## 1. Modelling conventions

* **Numbers.**  Scores and factors live in an arbitrary linearly ordered field
  `R` (so `Rat` for running examples, `Real` where `sqrt`, `log`, `exp` occur);
  pure selection code only needs a linear order.  Floating-point rounding, NaN
  and infinities are *not* modelled unless a property is about them (C62, C90: rounding;
  C01, C21 and C75: NaN).  Every other numeric theorem is therefore "in exact arithmetic".
* **Indices** are `Nat`, except where machine width or sign is the point (C05/C06
  use `Int` ids, C24/C45/C61 use 32/64-bit arithmetic).
* **Errors** are values: `Except Err a`, `Err` listing the python exceptions
  (`ValueError`, `IndexError`, ...) plus `undefinedBehaviour` for what C++ or CUDA
  leaves undefined (out-of-bounds access, signed overflow).
* **Sparse matrices** are modelled by their CSR rows (list of (column, value) per
  row, explicit zeros allowed) or by COO triples where the code works on COO.
* **Parallel loops** (`prange`) are modelled by task sets: every permutation of
  whole tasks, and every interleaving of their elementary writes.
* **Randomness** is an explicit argument (a list/stream of draws); theorems
  quantify over all of it.
* **External calls** are parameters with a stated contract: C++ `std::push_heap`,
  `pop_heap`, `sort_heap` (structure `HeapImpl`; the algorithms of libstdc++ are
  modelled in `Model/LibHeap.lean` and proved to meet it, `libHeap`), numpy `argsort` (any
  permutation sorting the keys), LAPACK `posv`/scipy `cho_factor` (solves the
  positive definite system it is given or reports an error), approximate indexes
  (arbitrary answers), `np.savez/np.load` (a key/value file).

## 2. Trusted base

Lean 4.33.0 kernel; the axioms `propext`, `Classical.choice`, `Quot.sound` (no
others; no `sorry`, `native_decide`, `bv_decide`); that the cited definitions
transcribe the cited code; and the contracts of external calls listed above.

## 3. Plan per property

| id | what is modelled | how it is proved |
|----|------------------|------------------|
| C01 | `select` loop and `TopK` functor over an abstract heap, and over the `push_heap`/`pop_heap`/`sort_heap` of libstdc++ (`Model/LibHeap.lean`) with arbitrary comparisons | loop invariant: kept pairs are a top-k of the prefix; induction on the row; sift-up/sift-down invariants with a hole; naturality in the score type |
| C02 | `recommend` -> `topk` -> `_topk_batch` -> `select`, zero-initialised outputs | from C01 when N <= items; N > items: padding with (0,0) contradicts the claim, counter-example theorem + `_partial` |
| C03 | block splitting, block schedule | row lookup in concatenated blocks; permutation/interleaving theorem |
| C04 | overwriting filtered scores with the lowest value before selection | from C01; counter-example when too few items remain + `_partial` |
| C05 | sort, `searchsorted`, clip, zero, eliminate, remap | invariant of binary search on sorted ids; counter-examples for repeated ids and stored zeros |
| C06 | order of checks, `Except` | case analysis; counter-example for a falsy array `filter_items` |
| C07 | norms with zero replaced, dot product scores over `Real` | Cauchy-Schwarz |
| C08 | `similar_*`, `_get_similarity_score` | as C04/C05; counter-example N > len(items) |
| C09 | query methods as state transformers incl. numpy views | invariance by induction on histories; Faiss view counter-example |
| C10 | caches as `Option` fields in a state machine | invariant by induction on histories; counter-examples LMF refit, query inside callback |
| C11 | Gram shortcut, right-hand side | sum rearrangement, completing the square |
| C12 | `_calculate_loss` | sum rearrangement; counter-example for negative entries + exact offset |
| C13 | half-sweeps, iterations | C11 per row, induction |
| C14 | CG loop | invariants r = b - Ax, r.p = r.r; conjugacy induction for termination |
| C15 | interleaving semantics of row tasks | non-interference induction on interleavings |
| C16 | four solver variants on an empty row | algebra; counter-example for the python CG variant |
| C17 | `recalculate_user/item` | definition independence + C11 |
| C18 | grow, assign rows, invalidate | list update lemmas, induction on histories |
| C19 | `explain` | symmetric solve identity, heap of tuples |
| C20 | alpha scaling CPU/GPU | equality of runs; GPU counter-example |
| C21 | `_check_fit_errors` with NaN predicate | case analysis; GPU counter-example |
| C22 | linked-list accumulator with sentinels | abstraction relation, induction over additions |
| C23 | `all_pairs_knn` rows and COO padding | C22 + C01 |
| C24 | 32-bit `K*i` | arithmetic; overflow counter-example |
| C25 | scorer recommend with shared accumulators | C22 + C01, induction on histories |
| C26 | zeroing own likes | counter-example + `_partial` |
| C27 | over-fetch and filter | pigeonhole; counter-example (more than N) + `_partial` |
| C28 | items mask and missing ids | list/set reasoning |
| C29 | weights over `Real` | algebra and monotonicity of log/sqrt |
| C30 | `train_test_split` on COO triples | partition lemma; counter-example for negatives |
| C31 | `_take_tails` index arithmetic | block structure of sorted arrays; gap counter-example + `_partial` |
| C32 | draws from seeded vs global generator | functional dependence; counter-example |
| C33 | metric accumulators | counting bounds; counter-example with repeated ids |
| C34 | same | pair-counting identity, prefix sums, fold over batches |
| C35 | `bpr_update` step with draws | invariant; binary search on sorted rows |
| C36 | `fit` initialisation + updates | invariant over all write histories; GPU counter-example |
| C37 | update formulas over `Real` | `HasDerivAt` |
| C38 | `lmf` fit epochs | invariant; sampling-count counter-example |
| C39 | save/load as key-value file | case analysis; counter-examples (BM25 parameters, callback) |
| C40 | conversions | field-wise equality; counter-examples |
| C41 | augmentation over `Real` | algebra, monotonicity |
| C42 | filter post-processing with arbitrary index | pigeonhole; counter-examples (Annoy count, broadcasting) |
| C43 | `_batch_call` | list lemmas |
| C44 | file system with crash points | counter-example; `_partial` without crash |
| C45 | constructor, argument checks, batch loop, pointer offsets, cuBLAS call | coverage induction; flat memory refines rows; stride counter-example |
| C46 | device matrix ops on flat storage | index arithmetic |
| C47 | `recommend_all` | reduction to C03; offset counter-example |
| C48 | seed normalisation | case analysis; counter-examples |
| C49 | index ranges of native loops | bounds from CSR well-formedness; refit counter-example |
| C50 | counters | induction |
| C51 | `similar_items` of item-item models on the stored similarity rows | C01 and C23, list lemmas; counter-example for list arguments |
| C52 | warps of a block, shuffles, shared memory, barriers as phases | non-interference inside a phase, induction on the sequence of calls; race and padding counter-examples |
| C53 | GPU query methods, argument checks, device selections | padded rankings from selections on masked scores, renaming and scaling; uniqueness of rankings gives agreement with the CPU theorems |
| C54 | ALS kernels on flat device arrays: Gram matrix through column-major gemm, CG row program per block, grid-stride loop, loss with atomic additions | refinement of the CPU row solver, non-interference of blocks, induction on iterations; transfer of C12, C13, C14 |
| C55 | state of the GPU models: six caches, invalidation, pickling, `to_cpu().to_gpu()`, queries, histories ending at undefined behaviour | invariant by induction over histories; symmetry between users and items; witnesses |
| C56 | GPU `partial_fit_*`: recalculation, growing, element-wise assignment in any order | induction over the order of device writes; refinement of a table update; witnesses |
| C57 | python's argument binding; factory functions and constructors as lists of attributes | binding succeeds exactly for calls that fit; composition through `*args`/`**kwargs` |
| C58 | pandas categories, scipy COO to CSR, HDF5 as a map; the five generators and readers | sorted-run summation gives the record sums; slicing at `indptr` undoes concatenation; last write wins for titles |
| C59 | indexes as lists of labelled vectors; `fit`, queries and uses of the wrapped model as steps of a history | invariant "the index holds the present factors" by induction; rankings of exact neighbours translated through labels, norms and the augmentation |
| C60 | matrices as objects that refer to numpy arrays; copies, sharing and operations in place are told apart | memory only grows (prefix order) unless an unsorted CSR argument of single precision is sorted; then only its order changes |
| C61 | C integers as values with a type; usual arithmetic conversions, wrap-around of unsigned types, undefined behaviour of signed overflow as `none` | exact characterisations (iff) of the sizes for which the positions are the intended ones |
| C62 | every operation followed by a rounding with relative error u and absolute error eta; orders of summation as trees | induction over the tree: error ((1+u)^f - 1) sum abs(x_i y_i) plus subnormal share; quotient lemma and Cauchy-Schwarz for cosines; selection through C01 |
| C63 | kernel launches with device limits; a rejected launch runs nothing and records an error nobody asks for | case analysis of launches, induction over iterations; on accepted launches equal to the models of C54 |
| C64 | the training of C13, any number of iterations | strong convexity of the row problems; first CG step is an exact line search along the gradient; gains summed over the iterations |
| C65 | `uniform_int_distribution` as in libstdc++ on 32-bit words (`Model/Draws.lean`), composed with the BPR samples of C35 and the LMF negatives of C38 | counting of word sequences; rejection leaves the same number of words to every position |
| C66 | the training loops with their callbacks (`Model/FitLoop.lean`): which callback, when, with which arguments, exceptions, `fit_callback`, the factors bound before the GPU loop | induction on the remaining iterations; two fits joined into one for ALS, GPU ALS and BPR |
| C67 | two runs of ALS training (CPU, GPU) on renamed data or in a rotated basis; `recommend`, `similar`, `calculateLoss`; two runs of BPR (every interleaving) and LMF training with permuted draws; item-item models with and without weights and their `recommend` (`Props/C67Knn.lean`) (`Spec/Symmetry.lean`, `Lemmas/Symmetry.lean`, `Lemmas/Rotation.lean`) | relational proof: each solver, sweep, iteration and call maps related inputs to related outputs; uniqueness of positive definite solutions for the direct solvers |
| C68 | rows with equal entries in ALS training (direct and CG), recalculation (CPU, GPU), batches of `recommend` (factor and item-item models) | independence of the stored order; for CG two small residuals bound the distance (strong convexity), with the vanishing gradients of C64 |
| C69 | signatures of all classes, python's argument binding, `NotImplementedError` of every method (`Model/Interface.lean`) | the name of a first parameter that is given by position does not matter; otherwise case analysis on the class |
| C70 | the run split, fit, metrics (`Model/EvaluationRun.lean`), composed of the models of C30, C13, C04 and C34 | ALS training is total for positive regularisation and keeps the shapes; the split is a partition; the list of every evaluated user is a ranking of unseen items first |
| C71 | two runs of the query models of C04, C05, C08, C25, C26 and C53 with different arguments | rankings of the same candidates for two lengths agree on scores (`ranking_prefix_scores`), and on ids without ties; rewriting of masks, sorted items and gathered rows |
| C72 | `Model/Threads.lean` (threads as trees of indivisible steps, schedules), `SharedKnn.lean`, `SharedFactors.lean`, `SharedGpu.lean`: the calls of C10, C18, C25 split into their reads and writes of attributes and arrays | a rely/guarantee calculus (`Safe`, `AllSafe`); invariant: every array of norms, every Gram matrix and every untouched row agrees with the start; the lock gives its owner the accumulator; termination by well-foundedness of the remaining steps under a fair schedule. `Model/Locked.lean`: the same calls under one lock of the application; invariant: there is a serial history of the finished calls, and what is left of the call that holds the lock, run alone, ends it as the sequential model says (refinement of `Model/ALSState.lean` by the steps) |
| C73 | `Model/NativeMemory.lean` (blocks named by owner and number; every function that allocates, as a thread of C72 with an oracle for failing calls), `DeviceLifetime.lean` (buffers, `shared_ptr`s, Python references) | rely/guarantee per thread: only its own blocks change; the exception of a parallel section stays once set; an invariant `BufInv` of matrices and buffers kept by every operation |
| C74 | `Model/FailedCalls.lean` (`partial_fit_*` with integer ids, including the part executed before an exception; histories of calls with all their outcomes), on top of `Model/ALSState.lean` and `Model/GpuState.lean`; `Model/KnnCalls.lean` (the item-item object, fitted or not, with `similarity` and `scorer` as separate attributes); `Model/AnnCalls.lean` (approximate models) | two states are related if filling all caches makes them equal; every query is answered the same and stays in the relation, so does `partial_fit_*` with ids from one side; induction over the history with an arbitrary selection of calls |
| C75 | `Model/FloatTraining.lean` (all CPU training code, the GPU ALS kernel and the GPU BPR kernel over the operations of an arbitrary number type, `FloatOps`; with the operations of a field it is the code of the other files, `Lemmas/FloatTraining.lean`) | NaN followed through a sweep: Gram matrix, residual, row; an invariant over iterations; for BPR a static check that every store starts from a load of the same coordinate, and induction over the schedule; zero factors: an inner product counted by rows and by columns |
| C76 | `Model/LoadAny.lean` (`load` of an arbitrary archive; `_least_squares` on arrays in memory, with strides and BLAS increments; scipy's check of CSR arrays and the item-item scorer on those arrays) | induction over the members of the archive; the array-level loop refines the loop over rows (`Lemmas/LoadAny.lean`); the accumulator either fails or every index was in range |
| C77 | `Model/BlasCheck.lean` (`check_blas_config`, the constructor of CPU ALS, a program as a list of events) | induction over the libraries and over the events of the program |
| C78 | the models of training (`Model/ALS.lean`, `GpuALS.lean`, `BPR.lean`, `LMF.lean`, `NearestNeighbours.lean`, `Weights.lean`) | runs on the matrix and on the matrix with empty rows and columns related step by step; induction over iterations, epochs, rows and the accumulator |
| C79 | the models of training, queries, explanations and metrics; `Model/CallerData.lean` for the formats; spec `Spec/Storage.lean` | canonical rows of the same matrix are permutations of each other; every consumer shown invariant under permutations of the entries of a row |
| C80 | `Model/NativeAls.lean`: the three native loops of ALS on arrays with strides, with scratch buffers per thread, BLAS and LAPACK calls on addresses | the loops over entries refine the folds of the row models; rows are written apart from each other; induction over any division of the rows among threads |
| C81 | `Model/SgdMemory.lean`: the instructions of `bpr_update` (row pointers) and `lmf_update` (both strides) on the memory of numpy arrays | step by step simulation of the models of C35 and C38 under any interleaving; layouts are injective and inside their memory |
| C82 | `Model/ElementTypes.lean`: what every call does with the element types of values, indices, factors and caches | invariant `OfType` over histories of calls; exact conditions by cases on the types |
| C83 | `Model/RoundKnn.lean`: the loops of `all_pairs_knn`, the scorer and `normalize` with a rounding after every operation; IEEE 754 with ties to even | accumulator invariant for any addition, error of the sums by induction, exactness on whole numbers, cosine errors through lengths and weights |
| C84 | `Model/RoundMetrics.lean`: the loop of `ranking_metrics_at_k` with a rounding after every operation | lock step with the exact loop for whole numbers, invariants for the sums, IEEE 754 rounding proved monotone and idempotent, log2 3 enclosed by series |
| C85 | `Model/ALS.lean`, `Model/ALSState.lean` (as C11, C17, C18, C19) | the difference of two solutions of problems that differ in one cell solves the old system for the factor of that cell; its energy is the pull times the change of the score; uniqueness; Cauchy-Schwarz; loss at the optimum = weight of likes - weighted score of likes |
| C86 | `Model/BPR.lean`, `Model/LMF.lean` (as C37, C65) | the lead of a pair after its update is a quadratic in the step; completing squares; fibres of the draws over triples (count from C65), gradient of a sum; slope and curvature of `ln(1+e^x)` (mean value theorem), quadratic lower model of the row objective |
| C87 | `Model/Metrics.lean` (as C33, C34) | the metrics as sums over the beginnings of the list: increments of hits (DCG), of triangular numbers of hits (average precision), and a closed form for the correctly ordered pairs (AUC); summation by parts with falling weights |
| C88 | `Model/Evaluation.lean` (as C30, C31) | the held-out ratings of a user are those with the greatest keys; a permutation within users that takes one choice to another moves the draws accordingly (bijection of outcomes); product of independent draws for `train_test_split` |
| C89 | `Model/NearestNeighbours.lean`, `Model/Select.lean`, `Model/Weights.lean` (as C25, C29, C51) | the candidates offered to the heap are known exactly (`scorer_exact`), a strictly increasing change of scores commutes with the heap, heaps of sizes k ≤ k' are nested; 0/1 data: binary Cauchy-Schwarz |
| C90 | `FloatOps.leastSquaresRow` on real numbers with rounded operations, Gram matrix with sums in any order, one triangle given to LAPACK; `roundPyRow`: the python solver | errors relative to sizes without cancellation, closed under the operations; induction over the stored entries; Cauchy-Schwarz for the size of the system; the exact matrix is at least `reg`, so a small residual means a small error |
| C91 | `roundCgRow`: the rounds of `_least_squares_cg` on real numbers with rounded operations; `roundCgSolve_eq` identifies it with the `cgSolve` of the other claims; `roundGpuRow`, `roundBlockDot`, `roundPyCgRow`: the CUDA kernel with its dot product, and the python solver | invariant of the rounds: the gap between maintained and true residual grows by a bounded amount in each round, whatever the directions and step lengths are; then as in C90 |
| C92 | `roundCalculateLoss`: `_calculate_loss` on real numbers with rounded operations, the rows divided among threads; `roundGpuLoss`: the CUDA kernel, the `atomicAdd`s in any order | the error of a sum by threads does not depend on the schedule (`near_threadSum`), the error of a row as in C91, then a quotient of two sums |
| C93 | `roundAugment`, `roundAnnoyScore`, `roundNmslibScore`: augmentation and scores on real numbers with rounded operations; an index contract with an error (`Spec.NearIndex`) | lengths of the rows as in C90, monotone rounding excludes negative differences, then rankings up to an error are stable under filtering (`NearRanking.filterTake`) and rescaling |
| C94 | `limitOps`, `mixedLmfRow`, `limitLmfFit`: LMF on numbers with rounding and a largest value, steps in double precision; `lmfFit` for exact numbers | the stored sum of squares contains the square of the gradient, so the step is at most the learning rate; induction over sums, rows and epochs with explicit size bounds |
| C95 | `popularOrder`, `slices`, `writeFile`, `similarArtists`, `similarMovies`, `userRecommendations`, `positiveRatings`, `askSimilar`, `askNeighbours`, `askRecommend`: the two example programs | the slices concatenate to the list; sections from C03, C04, C07, C43 and C51; stability of the sort by induction |
| C96 | `bprUpdateProg`, `bprProg`, `bprEpochs`, `bprFit` over ℝ with one thread | the energy as potential function: cross terms of a sample add up to the score, which times its gradient is at most 1/3; the aliased sample separately; induction over samples and epochs |
| C97 | `FloatOps.bprAct`, `bprEpochs`, `bprFit` with `limitOps`; `limitBprSig` (`bpr.pyx:287`) | error of each of the five stores relative to the exact step, error of the score relative to the sum of the absolute products, then the energy argument of C96 with these errors; finiteness and the bound by one induction |
| C98 | `explainMatrix`, `roundExplainScores`, `roundExplain` (`als.py:350-415,492-512`) | error of the computed matrix relative to its size without cancellation, backward stable solution, coercivity of the exact matrix; error of each contribution and of the running total; top-N of the computed contributions |
| C99 | `Model/RoundWeights.lean`: `roundIdf`, `roundTfidf`, `roundBm25`, `roundTfidfFit`, `roundBm25Fit` (`nearest_neighbours.py:195-252`) | numbers within a factor of the exact ones, closed under products, quotients, sums, roots and roundings; `1/n` as lower bound of the difference of the logarithms; C83 for the computed weights |
| C100 | `Model/Extended.lean`: `Ext`, `extRecommend`, `extSimilar` (`matrix_factorization_base.py:38-88, 216-248`, `topk.pyx:51-68`) | induction over the tree of the sum: a bound that grows from subtree to tree and is in range at the root; selection among finite numbers is C62's; bounds of the norms from C62; C97 and C94 for trained BPR and LMF models |
| C101 | `Model/RoundInit.lean`: `roundAlsStart`, `roundBprInit`, `deviceUniform`, `roundGpuAlsStart` (`cpu/als.py:144-146`, `bpr.pyx:158-173`, `gpu/als.py:126-136`, `gpu/random.cu:19-32`) | monotone, odd and idempotent rounding; twice a float is a float; C97 and C100 for the run from the draws to the answers |
| C102 | `Model/RangeALS.lean`: `rangeGram`, `rangeLeastSquaresRow`, `rangeLeastSquares`, `rangeAlsFit` (`cpu/_als.pyx:67-142`, `cpu/als.py:148-201`); `Spec/AlsRange.lean` | bound on the length of the optimum, backward error of a row (C85, C90), invariant `length ≤ B` over the iterations; C100 for recommend |
| C103 | `Model/ExtendedKnn.lean`, `Model/ExtendedCosine.lean`, `Model/ExtendedTfidf.lean`, `Model/ExtendedBm25.lean`, `Model/RoundSingle.lean`: `singleNormalize`, `singleCosineFit`, `extSingleNormalize`, `extSingleFit`, `extRowSum`, `extAverage`, `extLengthNorm`, `extBm25`, `extBm25Fit`, `extCosineFit`, `extIdf`, `extTfidf`, `extTfidfFit`, `extAddAll`, `extProducts`, `extRow`, `extLoop`, `extKnnFit`, `extScorer`, `extNormalize` (`_nearest_neighbours.pyx:60-170`, `nearest_neighbours.py:30-41,190-213,216-252`); `Spec/KnnRange.lean` | the computation with infinities equals the one without (C83) while every partial sum has room for the rest of its products |

## 4. Disagreements between code and properties

Recorded as they are proved; each has a theorem whose name ends in `_violated`.

| id | what the code does instead | theorem |
|----|----------------------------|---------|
| C02 | `N` larger than the catalogue: the zero-initialised output leaves `(0, 0.0)` entries, so item 0 comes back twice with a wrong score | `C02_recommend_violated` |
| C04 | fewer than `N` unfiltered items: filtered items are returned with score `-FLT_MAX` (or item 0 with score 0) | `C04_filter_violated` |
| C05 | an id repeated in `items` is filtered once only / returned twice; a stored zero is filtered without `items` but not with it | `C05_items_violated` |
| C06 | `filter_items=np.array([0])` is falsy, accepted together with `items` and applied to positions; `N = 0` and `items=[]` raise | `C06_array_filter_violated`, `C06_zero_violated` |
| C07 | `N` larger than the number of entities: padding entry "entity 0, score 0" | `C07_padding_violated` |
| C08 | `N > len(items)`: first member of `items` again with score 0; too few unfiltered: filtered ids | `C08_similar_violated` |
| C09 | Faiss similar_items with a scalar id normalises the looked-up row of item_factors in place (numpy view), changing later recommendations | `C09_faiss_similar_violated` |
| C10 | a query made from a fit callback fills the norm/Gram caches of that epoch, which stay in use after training; refitting LMF never drops the norm caches | `C10_callback_violated`, `C10_callback_gram_violated`, `C10_lmf_refit_violated` |
| C12 | negative stored entries add their confidence to the numerator although their preference is 0: the loss is too large by the sum of these confidences | `C12_loss_violated` |
| C16 | use_native=False with CG: no special case for empty rows, a user without ratings keeps a non-zero factor when cg_steps < factors | `C16_python_cg_violated` |
| C17 | recalculate_item does not check the number of rows: with too few rows the native solver reads beyond the sparse matrix, surplus rows are ignored | `C17_item_rows_unchecked` |
| C20 | GPU fit never multiplies the confidences by alpha | `C20_gpu_violated` |
| C21 | the GPU models do not check for NaN after training | `C21_gpu_violated` |
| C23 | Rows of the fitted similarity matrix are the exact top-K except row 0: unused result slots stay (0, 0, 0.0) and the COO constructor turns them into an entry of row 0. | `C23_padding_violated`, `C23_extra_violated` |
| C24 | item_count*K computed in C int overflows: overlapping slots (21.5M items, K=100), zero-size allocation (2^26 items, K=64). | `C24_disjoint_violated`, `C24_overrun_violated` |
| C26 | filter_already_liked_items zeroes liked items instead of removing them: they are returned with score 0 when there are too few positive candidates. | `C26_liked_violated`, `C26_negative_violated` |
| C27 | Scalar recommend with filter_items returns up to N + len(filter_items) results (N is enlarged and the cut uses the enlarged N). | `C27_too_many_violated` |
| C28 | Batch rank_items cuts the ranking to 10 items; repeated items are returned repeatedly only when they have no score. | `C28_batch_violated`, `C28_repeats_violated` |
| C30 | train_test_split drops negative ratings (and stored zeros) that fall into test: they are in neither part | `C30_negative_violated` |
| C31 | leave_k_out_split: a gap in the eligible user ids repeats indexes in _take_tails and multiplies held-out values; train_only_size reserves positions instead of user ids; in float64 a draw next to 1 can tie with the next user's draw 0 and a rating changes sides | `C31_gap_violated`, `C31_reserved_violated`, `C31_float_violated` |
| C32 | leave_k_out_split with a seed depends on the global np.random; np.random.RandomState arguments raise AttributeError | `C32_leave_k_out_violated`, `C32_legacy_violated` |
| C33 | K larger than the catalogue counts the repeated item 0 as further hits (precision 2); -1 padding of item-item/approximate models counts as recommended irrelevant items (negative AUC) | `C33_repeat_violated`, `C33_pad_violated` |
| C34 | AUC of a perfect list is below 1 when a user has more than K relevant items (unranked relevant items tie with unranked irrelevant ones) | `C34_perfect_violated` |
| C36 | the GPU kernel's bias guard compares with the number of columns and is always true, so the constant user bias column is trained too | `C36_gpu_violated` |
| C37 | verify_negative_samples=False and the same item drawn as liked and disliked: the two read-modify-writes build on each other and the item moves although the gradient is zero | `C37_alias_violated` |
| C38 | the number of negative samples per row is capped by the number of factor columns, not the number of items | `C38_negatives_violated` |
| C39 | a pathlib.Path without .npz is saved but not found by load; a model with a Generator/RandomState (or a seed of 2^64 or more) is saved but cannot be loaded; BM25 K1, B and num_threads of item-item models and cg_steps of GPU models are reset to defaults | `C39_pathlib_violated`, `C39_generator_violated`, `C39_seed_violated`, `C39_bm25_violated`, `C39_gpu_cg_steps_violated` |
| C40 | to_gpu/to_cpu reset use_native, use_cg, num_threads, cg_steps (BPR: dtype, num_threads); float64 factors raise ValueError; Fortran-ordered factors are copied as if row-major | `C40_options_violated`, `C40_bpr_options_violated`, `C40_float64_violated`, `C40_fortran_violated` |
| C42 | Annoy similar_items asks for N instead of N+len(filter) results; a batch with filter raises or repeats the only remaining result; falsy array filters are not over-fetched, longer arrays raise; Faiss with approximate_recommend=False raises AttributeError | `C42_annoy_similar_violated`, `C42_batch_filter_violated`, `C42_array_filter_violated`, `C42_faiss_not_approximate_violated` |
| C44 | a crash or cut connection leaves a partial file that every later call takes for the cached dataset (never repaired); only the HDF5 reader can notice | `C44_crash_violated`, `C44_closed_violated`, `C44_stuck` |
| C46 | Strided (e.g. transposed) numpy arrays are copied in memory order; ids are reduced modulo 2^32 before the range check; assign_rows checks neither the range nor the number of ids, so it stores outside the buffer or into the parent of a slice; duplicate ids and assignments within one matrix depend on the execution order; slices and same-type conversions share storage until the original is grown. | `C46_construct_violated`, `C46_ids_violated`, `C46_assign_range_violated`, `C46_assign_slice_violated`, `C46_assign_length_violated`, `C46_assign_duplicate_violated`, `C46_assign_alias_violated`, `C46_shared_violated` |
| C47 | a non-zero `users_items_offset` together with filtering or recalculation always raises `ValueError` | `C47_offset_violated` |
| C48 | np.random.RandomState raises AttributeError in every CPU fit; on the GPU seed 0 is replaced by the clock | `C48_cpu_legacy_violated`, `C48_gpu_zero_violated` |
| C49 | refitting on another shape reads or writes outside the arrays (CPU ALS, BPR, LMF, GPU ALS with fewer rows); recalculate_user does not check columns; recalculate_item does not check rows; GPU addresses overflow int above 2^31 factor values; GPU loss has no checks and no shared memory for one half precision factor | `C49_refit_violated`, `C49_refit_items_violated`, `C49_recalculate_user_violated`, `C49_recalculate_item_violated`, `C49_gpu_refit_violated`, `C49_gpu_overflow_violated`, `C49_gpu_loss_violated`, `C49_loss_shared_violated`, `C49_bpr_refit_violated`, `C49_lmf_refit_violated` |
| C51 | similar_items(items=[...]) with a list raises TypeError; only a numpy array works. | `C51_list_violated` |
| C52 | Two calls of the block dot product without a barrier in between race: a warp can read the partial sum warp 0 already stored for the next call. The ALS solver, loss and BPR kernels do that from one stored entry (row, sample) to the next. With a number of factors that is not a multiple of 32 the shuffles read lanes that do not exist, whose values CUDA leaves undefined. | `C52_race_violated`, `C52_als_violated`, `C52_padding_violated` |
| C53 | GPU queries: filter_items=[] raises IndexError, recalculate_user of a user without stored interactions raises IndexError, liked items are returned when fewer than N items are eligible, N beyond the catalogue gives misaligned rows and stale cells, similar_items with N > len(items) raises or returns stale cells, and recalculate_item divides by the norm of the old factors, so its scores are not cosines. | `C53_empty_filter_violated`, `C53_empty_user_violated`, `C53_recommend_violated`, `C53_similar_items_violated`, `C53_recalculate_violated` |
| C55 | a query from the callback of `fit` leaves norms and Gram matrices of an early epoch in the cache of a GPU model; in half precision `partial_fit_*` raises after growing the table, so cached norms are too short | `C55_callback_violated`, `C55_callback_gram_violated`, `C55_half_violated` |
| C56 | GPU `partial_fit_*`: a repeated id can get a mixture of its two vectors; half precision models always raise `RuntimeError` (and keep the new rows); a negative id writes outside the table; rows without any interaction raise `IndexError` | `C56_duplicate_violated`, `C56_half_violated`, `C56_negative_violated`, `C56_empty_user_violated` |
| C57 | the approximate factories raise `TypeError` for every call with seven or more positional arguments (`use_gpu` is passed twice); the BPR factory drops `dtype` on the GPU; `NMSLibModel` silently drops unknown keywords | `C57_positional_violated`, `C57_gpu_bpr_dtype_violated`, `C57_nmslib_kwargs_violated` |
| C58 | lastfm writes users as rows although the file and the reader call it artist/user; an identifier such as `NA` makes the sketchfab, reddit and million song generators fail; `triplets_filename` is ignored; tracks missing from the summary lose their identifier; `np.object` is gone from numpy 1.24 on, and the movielens generator then leaves a file that cannot be read | `C58_lastfm_orientation_violated`, `C58_missing_violated`, `C58_msd_filename_violated`, `C58_msd_track_violated`, `C58_movielens_object_violated` |
| C59 | changing item factors through the wrapped model (`model.partial_fit_items`) leaves the indexes stale; NMSLib never returns items with a zero factor; a Faiss `similar_items` for one item rescales the stored factor, so the recommend index disagrees with it; Faiss `fit` raises `RuntimeError` after training for catalogues smaller than `nlist`, keeping the old indexes; Faiss fills short answers with item -1 | `C59_stale_violated`, `C59_nmslib_zero_violated`, `C59_faiss_stale_violated`, `C59_faiss_small_violated`, `C59_faiss_padding_violated` |
| C60 | `fit` of BPR (CPU and GPU) and LMF sorts the caller's matrix in place if it is an unsorted CSR matrix of single precision; a matrix that shares `indices` with it then has other cells, because its data is not moved; the weighting functions return, for a COO argument, a matrix that shares `row` and `col` with it | `C60_order_violated`, `C60_shared_violated`, `C60_weights_shared_violated` |
| C61 | 32 bit products in index expressions: CPU top-k (`row * cols` from 21.5 million items in batches of 100, `startidx * k`) and GPU ALS (`u * factors`, 20 million users with 128 factors) have undefined signed overflow; `all_pairs_knn` writes results of one item into the slots of another (25 million items, K = 100) or past the wrapped buffer length (50 million); the BPR kernel's `int` counter passes 2^31 and reads at negative positions when samples + blocks > 2^31 | `C61_topk_violated`, `C61_knn_violated`, `C61_gpu_als_violated`, `C61_gpu_bpr_violated` |
| C01 | a NaN score compares false with everything: at the front of the heap it keeps better scores out; `select` over [NaN, 1, 9] with k = 2 returns 1 and NaN | `C01_nan_violated`, `C01_nan_first_violated` |
| C62 | Similarities where a square underflows: the one-factor float32 vector 2^-100 has similarity 0 to itself. Rankings of scores closer than the rounding error can be wrong. | `C62_underflow_violated`, `C62_exact_violated` |
| C63 | With more than 1024 factors (BPR: more than 1023) the kernels are not launched and nothing is raised: `fit` returns the random initial factors, `recalculate_user` zeros, the loss is 0, all norms are 0. The loss kernel with one factor in half precision stores 4 bytes into 2 bytes of shared memory. | `C63_fit_violated`, `C63_recalculate_violated`, `C63_others_violated`, `C63_scratch_violated` |
| C65 | GPU BPR draws entries by `word % nnz`, so with three stored entries the first is a little more likely than the second; LMF does not check its negatives, so a user's own items are trained as negatives | `C65_gpu_violated`, `C65_lmf_own_items_violated` |
| C66 | callbacks and resumed training: LMF forgets its Adagrad sums when fitted again, so two fits of one epoch are not one fit of two; a falsy callable is never called; the elapsed time is negative when the clock is set back; ALS, BPR and LMF pass 3, 4 and 2 arguments; on the GPU factors assigned by a callback are kept untrained while training continues on the old ones | `C66_lmf_resume_violated`, `C66_falsy_violated`, `C66_elapsed_violated`, `C66_signature_violated`, `C66_gpu_assign_violated` |
| C68 | With the default conjugate gradient solver (3 steps) two users with identical interactions have different factors after fit, because each starts from its own random factor; use_cg=False does not have this. | C68_cg_violated |
| C69 | Parameter names differ from `RecommenderBase`: `fit(user_items=X)` is a TypeError on item-item and approximate models, `save(file=f)` on CPU and item-item models, `load(fileobj_or_path=f)` on GPU models. `similar_users` is refused by item-item and approximate models, `save`/`load`/`rank_items` by approximate ones, `recalculate_user` by approximate ALS because of the attribute name `"+_user_factor"`. `recommend` on a Faiss model with `approximate_recommend=False` is an AttributeError (`warnings.warning`). | C69_fit_keyword_violated, C69_file_keyword_violated, C69_similar_users_violated, C69_approximate_save_violated, C69_rank_items_violated, C69_recalculate_violated, C69_faiss_violated |
| C70 | split, train, evaluate raises ZeroDivisionError when the draws hold out no rating, and when one user's held-out ratings cover every item (all other users' results are lost) | `C70_nothing_held_out_violated`, `C70_all_items_violated` |
| C71 | with equal scores the list for N results is not the beginning of the list for N+1; in similar_items the order of items decides which of two tied items is returned | `C71_ties_violated`, `C71_similar_items_order_violated` |
| C72 | No lock protects the lazily filled caches (`item_norms`, `user_norms`, `YtY`, `XtX`) and `partial_fit_*`. Two threads adding users can lose a user although both calls return; `recalculate_user` next to `partial_fit_items` can leave a Gram matrix that does not belong to the factors in the cache for ever, or raise TypeError; `similar_items` next to `partial_fit_items` mixes new factors and old norms; the first `similar_items` of two threads can divide by zero. On the GPU `_item_norms` is set before `_item_norms_host`, `_YtY` before it is filled, and two large queries do not fit into the memory pool that each assumes to have for itself. | `C72_lost_update_violated`, `C72_lost_user_violated`, `C72_stale_gram_violated`, `C72_cleared_gram_violated`, `C72_old_norms_violated`, `C72_zero_norm_violated`, `C72_gpu_norms_violated`, `C72_gpu_gram_violated`, `C72_gpu_memory_violated` |
| C73 | A failing allocation is not reported: malloc results are used without a test, and std::bad_alloc passes through constructors declared without except +. On the GPU bpr_update and the constructors of CSRMatrix, COOMatrix and RandomState lose memory when a later call fails; the destructors of CSRMatrix, COOMatrix and LeastSquaresSolver throw, which ends the process after any sticky CUDA error; Matrix keeps no reference to an array passed through __cuda_array_interface__; resize frees the buffer another thread's query is reading, and loses the new one if its copy fails. | `C73_malloc_violated`, `C73_new_violated`, `C73_bpr_update_violated`, `C73_constructor_violated`, `C73_destructor_violated`, `C73_foreign_violated`, `C73_resize_race_violated`, `C73_resize_leak_violated` |
| C75 | the factors of a failed fit are kept and used as the start of the next: once there is a NaN every later fit raises ModelFitError (CPU ALS with all four solvers, BPR, LMF); GPU ALS replaces all user factors by zero instead; in GPU BPR a NaN stays and nothing raises; after a fit on an empty matrix every later fit returns zero factors | `C75_cg_violated`, `C75_gpu_fit_violated`, `C75_cholesky_violated`, `C75_bpr_violated`, `C75_lmf_violated`, `C75_python_cg_violated`, `C75_python_solve_violated`, `C75_gpu_violated`, `C75_gpu_bpr_violated`, `C75_zero_violated`, `C75_empty_violated` |
| C76 | `load` checks neither names nor shapes nor contents: a member can shadow a method, planted caches change answers, a factor array in Fortran order or with one column gives wrong values or an out-of-bounds read, crafted similarity arrays make `recommend` leave its arrays; and so does a liked item that the item-item model does not know | `C76_shadowed_method_violated`, `C76_item_item_file_violated`, `C76_planted_cache_violated`, `C76_one_column_violated`, `C76_one_factor_violated`, `C76_fortran_violated`, `C76_crafted_similarity_violated`, `C76_unknown_item_violated` |
| C74 | a `partial_fit_users` call with a new id and an out-of-bounds negative id raises after the table was extended: the new users stay, and `similar_users` fails for every user if the norms were cached; in logistic matrix factorisation a raising `similar_items` leaves cached norms that the next `fit` keeps; `fit` interrupted by a callback leaves changed factors; half precision GPU models keep the new rows; `fit` of an item-item model with at least 2^31 slots raises after replacing `similarity` but not the scorer | `C74_grown_violated`, `C74_grown_answers_violated`, `C74_lmf_violated`, `C74_fit_violated`, `C74_gpu_half_violated`, `C74_item_item_fit_violated` |
| C77 | the BLAS configuration is looked at when the first ALS model of the process is created and never again: threads switched on later go unannounced | `C77_later_violated` |
| C78 | items without interactions change what ALS trains for the others, because `fit` starts them at random factors which enter the Gram matrix of the first pass; TF-IDF and BM25 similarities change with the number of items, rated or not; users without interactions matter under the python conjugate gradient solver | `C78_items_violated`, `C78_tfidf_items_violated`, `C78_bm25_items_violated`, `C78_python_cg_violated` |
| C79 | A stored zero is confidence 0 for ALS, a liked item for `recommend`, BPR and LMF and a relevant item for the metrics.  A number stored in parts is several confidences for ALS, and its parts are squared separately by the cosine norm.  Without weights, which of several tied neighbours is kept depends on the order of the entries in the rows. | `C79_als_zero_violated`, `C79_als_parts_violated`, `C79_zero_violated`, `C79_cosine_parts_violated`, `C79_knn_ties_violated` |
| C67 | Which of several equally good items is recommended, and which of several equally similar neighbours is kept, depends on their numbers (heap of (score, index) pairs): renaming the items changes the answer. An item without ratings gets a stored neighbour 0 with similarity 0 if its number is 0. | C67_ties_violated, C67_knn_ties_violated, C67_knn_first_violated |
| C80 | The Cython views are `floating[:, :]` but every BLAS call assumes that the numbers of a row are neighbours: item factors in Fortran order (for example `vt.T.astype(np.float32)`, set before `fit`) give wrong factors without an error; user factors in Fortran order overlap, and the result depends on the order in which the threads take the rows | `C80_fortran_violated`, `C80_fortran_users_violated` |
| C45 | For k larger than the number of items the rows of one batch are stored with stride min(k, items) instead of k: results of later queries land in earlier rows and the rest of the output is uninitialised device memory; the answer depends on the free memory. Float16 factors write 4-byte scores into a buffer of 2-byte elements. The unsigned memory counter wraps around for more than 2^27 results and the batch size becomes the whole query. With less than 32 results the plan leaves no room for the 256-byte blocks of the pool and a query that fits raises. Filter ids are not range checked. An item that scores -FLT_MAX ranks below filtered items. | `C45_stride_violated`, `C45_memory_violated`, `C45_half_violated`, `C45_plan_violated`, `C45_blocks_violated`, `C45_filter_violated`, `C45_lowest_violated` |
| C81 | bpr_update takes `&Y[i, 0]` and reads `liked[j]`: for factor arrays in Fortran order (possible when factors are assigned before fit, e.g. `model.item_factors = a.T`), it reads and changes the factors of other items and users; with fewer columns in one array than in the other both loops leave the memory of the array | `C81_bpr_fortran_violated`, `C81_bpr_fortran_users_violated`, `C81_bpr_columns_violated`, `C81_lmf_columns_violated` |
| C82 | LogisticMatrixFactorization ignores `dtype`; CosineRecommender and the other item-item models train on integer counts but `recommend` (and so evaluation) with the same matrix raises TypeError; ItemItemRecommender.fit takes only float64; 64 bit indices are refused by item-item models, evaluation and the GPU; scores are float64 for one user and float32 for several; a float16 GPU model becomes a CPU model on which every query, recalculation and fit raises | `C82_lmf_violated`, `C82_knn_violated`, `C82_evaluate_violated`, `C82_half_violated`, `C82_mixed_violated` |
| C29 | TF-IDF/BM25 give weight 0 (not positive) to users with n-1 of n items, and negative weight to users with all items; normalize may then divide 0 by 0. normalize squares integer counts in their own type: a 32 bit count of 46341 or more overflows (65537 plays by one listener get the weight 181 instead of 1, 50000 plays NaN). | `C29_idf_violated`, `C29_negative_idf`, `C29_integers_violated` |
| C83 | In double precision CosineRecommender can find an item less similar to itself than to another item: six users, counts around 5e7, self similarity 1 - 2^-53 and similarity 1 to an item whose exact cosine is below 1; with K = 1 the item is missing from its own row | `C83_self_violated` |
| C84 | NDCG of a perfect model exceeds 1: three users (1, 1 and 3 relevant items), K = 3, all relevant items first, and NDCG is 1.0000000000000002 | C84_ndcg_violated |
| C85 | Liking an item with weight (alpha * value) below 1 can lower its score, because the value replaces the confidence 1 of items without entry (-5/6 to -33/37); a like also lowers a score above 1 (4/3 to 140/137); and raising the value of an item can let another item overtake it. | C85_weak_like_violated, C85_above_one_violated, C85_rank_violated |
| C86 | Regularisation can reverse a correctly ranked pair in the sample that trains it; a learning rate of 4 drives a wrong pair further apart; LMF's first Adagrad steps move every factor by almost the learning rate (default 1) and can lower the likelihood. | `C86_right_order_violated`, `C86_large_rate_violated`, `C86_lmf_overshoot_violated` |
| C89 | with ratings other than 0 and 1, a new user who rates both items can lower their similarity in CosineRecommender (1 and 1, then 1 and 5: cosine 1 falls to 6/sqrt 52) | `C89_cosine_violated` |
| C92 | The training loss is a sum of squares, but `calculate_loss` computes it as a difference of large numbers in the precision of the factors; in single precision the reported loss of a well-fitted entry with a large confidence can be negative (`implicit/cpu/_als.pyx:278-299`) | C92_negative_violated |
| C93 | Scores of Annoy are computed from distances in single precision: the distance √2 of orthogonal vectors comes back rounded, so an item orthogonal to the user gets a positive score instead of 0 (`implicit/ann/annoy.py:220-231`) | C93_orthogonal_violated |
| C95 | The files of the example programs contain lines that no model answered: padding id -1 is printed as the name of the last artist (item-item models), liked artists and artist 0 appear among the recommendations of users with fewer than ten artists left; movielens.py ends with IndexError if the title file has a movie id above all rated ones | C95_padding_violated, C95_recommendations_violated, C95_titles_violated |
| C99 | A user with n - 1 of n items has idf 0, but log(n) and log1p(n - 1) can differ in the last place (they do for n = 3 in the C library), and TFIDFRecommender then makes weights of length one from the rounding error: two items only this user rated get similarity 1 instead of 0 (or NaN, see C29) | `C99_cancellation_violated` |
| C100 | Finite factors beyond the range: NaN from inf - inf is returned instead of a better item, a filtered item comes back when all others have -inf, items with +inf are not told apart, the order of summation decides between finite and infinite, and the similarity of a vector with entry 2^64 to itself is NaN in single precision. | `C100_nan_violated`, `C100_filtered_violated`, `C100_infinite_violated`, `C100_order_violated`, `C100_similar_violated` |
| C101 | implicit.gpu.RandomState.uniform(low=-1, high=0.75*2^-23) can return 2^-23, above high. | `C101_uniform_violated` |
| C102 | CPU ALS in single precision with one item factor 2^64: the exact optimum is below 1, but the Gram matrix overflows and LAPACK is given an infinite matrix. | `C102_overflow_violated` |
| C103 | Values whose squares overflow: `normalize` gives weight 0 instead of 1 for a single value 2^600, for ratings in single precision already 2^65; products overflow in `fit`; BM25 weights are NaN when the sum of the ratings of an item overflows, even for `B = 0`; `normalize` gives NaN for an item whose only stored values are 0 | `C103_cosine_violated`, `C103_single_violated`, `C103_overflow_violated`, `C103_bm25_violated`, `C103_zero_violated` |

## 5. What is simplified or trusted, by area

* **Queries (C02-C10, C47).**  An empty *python list* given as `items` becomes a float
  array in numpy and raises `IndexError` on indexing; the model raises the `ValueError`
  of the integer-array case.  Numpy views are modelled only where the code writes
  through one (Faiss, C09); elsewhere arrays are values.  Selection in `select.h` uses
  indices without the 32-bit limit of the C code.
* **Approximate indexes (C41, C42).**  Annoy, NMSLib and Faiss are parameters: arbitrary
  answers for soundness, exact answers for exactness.
* **ALS (C11-C21).**  Exact arithmetic; LAPACK `posv` and scipy solvers are contracts;
  `cgRow` covers the native CG and the GPU solver kernel (`gpu/als.cu:38-110`) without
  its NaN fallback; the GPU recalculation is that solver with `cg_steps = factors`.
* **Item-item models (C22-C28, C51).**  `all_pairs_knn` gets float64 data; scipy's COO to
  CSR conversion (`cooToCsr`) and `np.argsort` are contracts; the lock of the scorer makes
  its calls serial; `N` is a natural number.
* **Weights (C29).**  Real arithmetic; `x / 0 = 0` of Lean is excluded by hypotheses.
* **Evaluation (C30-C34).**  The sort key "user + random" of `leave_k_out_split` is exact;
  metrics use exact arithmetic, the discounts are a parameter (`cg`) proved to be
  `1 / log2 (i + 2)` in `C33_discount`; `recommend` is a parameter of the metrics.
* **BPR (C35-C37, C50).**  Single loads and stores interleave arbitrarily, but compilers
  keeping values in registers are not modelled; `has_sorted_indices` is computed, not
  cached; `uniform_int_distribution` stays in range; `thrust::binary_search` is
  `std::binary_search`; a GPU `+=` is one instruction and its dot product arbitrary.
* **LMF (C37, C38).**  Cython counts a `range` loop in a variable of its own, so that the loop over the negative samples
  (`lmf.pyx:275`) is not disturbed by the inner loops over the same variable `_`.  Sigmoid and square root are parameters where their values do not
  matter; the draws of each row are explicit.
* **Persistence, conversion, downloads, seeds (C39, C40, C44, C48).**  numpy `savez`, `load`,
  `asanyarray` are trusted; file objects are not modelled; integers beyond 64 bits become
  pickled objects; `urlretrieve` writes prefixes of the content; the HDF5 reader, numpy's
  and cuRAND's generators are parameters.
* **GPU top-k and matrices (C45, C46).**  RAFT `select_k` is a parameter; `cublasSgemm` is exact and column-major
  (`gemmTN`); pool allocations are rounded to 256 bytes in `poolUsed` only (`C45_blocks`), fragmentation of the pool
  and the address test `is_host_memory` (knn.cu:39-53, results are always on the host) are not modelled; device buffers are never freed; inputs with
  `__cuda_array_interface__` and allocation failures are not modelled; Cython's conversion
  to `size_t` raises `OverflowError`.
* **Native memory (C24, C49).**  Sparse arrays are read before solving; CSR arrays are well
  formed (the python layer does not check that); signed overflow is undefined behaviour.
* **GPU queries (C53).**  `Model/GpuQuery.lean` covers `recommend`, `similar_users` and `similar_items`
  with and without recalculation on top of the model of `KnnQuery.topk` (C45).  Ids are natural numbers,
  numpy integers as ids and half precision are not modelled; the solver behind `recalculate_*` is a
  parameter; RAFT's `select_k` is any function that selects the best.
* **ALS kernels (C54).**  `Model/GpuKernel.lean`: `calculate_yty`, `least_squares_cg_kernel` and
  `calculate_loss_kernel` on row-major arrays.  cuBLAS `gemm` is its column-major definition.  The
  threads of a block run in lock step and `dot` is the sum over the threads; for up to 32 factors that
  is one warp (C52), for more it is an assumption the code does not always meet (C52).  Exact
  arithmetic, so the NaN fallback never fires; half precision left out; addresses do not overflow.
* **GPU state (C55, C56).**  `Model/GpuState.lean`.  Factors exist (the state before the first `fit` has no
  queries worth asking); `fit` is any function on the factors followed by the queries of the callback, which
  catches exceptions; an epoch that raises leaves arbitrary factors.  Ids of `partial_fit_*` are below `2^31`.
  Half precision differs only in that `assign_rows` raises; rounding is left out.
* **Factories (C57).**  `Spec/Call.lean`, `Model/Factory.lean`.  Python's rules for positional, keyword, `*args` and
  `**kwargs` arguments; values are opaque except for `None`, truth and dictionaries of numbers.  `np.dtype` and
  the presence of CUDA are parameters.  Not modelled: import errors of the nearest neighbour packages,
  `check_blas_config`, the order of keyword arguments, attributes that are not parameters.
* **Dataset files (C58).**  `Model/Dataset.lean`.  pandas, scipy and h5py are modelled by what they do with well formed
  input: `astype("category")` sorts the distinct values, `coo_matrix(...).tocsr()` sums duplicates, HDF5 returns what
  was written, `None` in a string dataset becomes the empty string.  Which texts pandas takes for missing values is a
  parameter (`isNa`).  Numeric-looking identifiers stay texts; ratings are exact.  Reading the raw CSV files, the MovieLens
  variants (they differ in file names and separators only) and logging are not modelled.
* **Approximate models over time (C59).**  `Model/AnnFit.lean`.  Building an index stores labelled vectors; the search is a
  parameter, for the theorems one that returns exact nearest neighbours (or largest products).  Only the CPU index of Faiss;
  index parameters, build failures of Annoy and NMSLib and rounding are left out; a Faiss query for an item with zero factor
  divides by zero in the code and is excluded from the theorems.
* **The caller's data (C60).**  `Model/CallerData.lean`.  A reference is a position in memory and nothing is freed.  Trusted
  behaviour of scipy: `astype` and `alpha * X` copy, `tocoo()` of CSR/CSC copies, `tocsr()` of CSR and `tocoo()` of COO return
  the object itself, `coo_matrix(X)` of COO and `X.T` share the arrays, `sort_indices` and `eliminate_zeros` of CSR work in
  place, `eliminate_zeros` of COO replaces the arrays.  Formats other than CSR, CSC and COO, rounding by `astype`, and
  `leave_k_out_split` are left out.  Validity of a CSR argument (`Spec.ValidCsr`) is what scipy checks plus monotone pointers.
* **Machine integers (C61).**  `Model/MachineInts.lean`.  LP64 types, two's complement conversion to signed types (gcc, clang,
  nvcc), pointer arithmetic in 64 bits without overflow, `int32` index arrays (the `int` instance of the fused index types).
  Only index expressions are modelled there; what is read and written at the positions is in the models of the other properties.
* **Rounding (C62).**  `Model/Rounding.lean`.  Overflow, infinities and NaN are left out (for NaN see C01, for overflow C100).  `Rounding` is an
  assumption about the hardware; `binaryFloat` (with subnormal numbers) and `freeFloat` (without a smallest exponent, equal to the
  former on numbers that are zero or normal: `roundBits_eq`) are instances.  The order of summation of BLAS and of
  `np.linalg.norm` is any tree; that these libraries use trees (and not, say, Strassen's algorithm) is trusted.  Training is not
  covered: ALS, BPR and LMF are modelled in exact arithmetic only.
* **Launches (C63).**  `Model/GpuLaunch.lean`.  Trusted: a launch with too many threads or too much shared memory runs nothing, is
  recorded, and is not reported by `cudaDeviceSynchronize`.  Whether cuBLAS notices a recorded error is a parameter; thrust
  calls, which may notice it, do not occur in the functions modelled.  Allocation failures are left out (they raise).
* **Random words (C65).** The words of `mt19937` and curand are taken as uniform and independent; probabilities are counts of word sequences. `uniform_int_distribution` follows libstdc++ 13 (`bits/uniform_int_dist.h`) for ranges up to 2^32; larger ranges are left out.
* **Callbacks (C66).** A callback is an arbitrary function of its arguments and the model to an outcome and a changed model; it is numbered so that `fit_callback` can be reassigned. The progress bar and logging are left out. `time.time()` is an arbitrary sequence of readings. For BPR and LMF the theorems about fitting again are given the draws of each epoch, because `fit` seeds new generators.
* **Renaming and rotating (C67).** Exact arithmetic: in floats other summation orders round differently. The initial factors are given and renamed or rotated too; `fit` draws them by position, so one seed does not give renamed initial factors. BPR and LMF draw stored entries by position: the theorems relate a run to the one that draws the positions of the renamed entries (a permutation of the positions), so they speak about the set of possible runs and their distribution, not about one seed.
* **Same history (C68).** Exact arithmetic; equal scores, and not equal ids, are claimed for item-item models, because equal scores can be returned in either order when the entries are stored in another order.
* **Interface (C69).** A call is followed until its arguments are accepted; the checks of the values (type of the matrix, ids out of range) belong to other properties. Batches with no ids are not considered.
* **Evaluation run (C70).** Exact arithmetic; scores are assumed to stay above the sentinel that marks filtered items; the starting factors and the draws are parameters.
* **Laws between queries (C71).** Exact arithmetic; the theorems about ids exclude ties.
* **Threads (C72).** The lock in `C72_locked` is the application's, not the library's: it describes how callers can avoid the races. Trusted: the interpreter switches threads only between steps of the model. A step is the reading or writing of one attribute, the reading of a whole array by numpy, BLAS or `topk`, the masked store into the norms, or the store of one row of factors. The order of the steps follows the Python source. Exceptions inside `with self.lock` do not occur for valid arguments, so the release of the lock by an exception is not modelled. Not proved: that the cached norms are right once all threads are finished, if one of them updates the model. On the GPU only the caches and the memory pool are modelled; the CUDA calls of different threads are taken to be independent otherwise.
* **Native memory (C73).** Only allocation, use and release are modelled, not sizes or contents (C45, C46, C49). Trusted: `malloc`, `new`, `cudaMalloc` and rmm return memory that overlaps nothing else that is allocated; Cython runs the `finally` of a parallel section in every thread and passes on one of the exceptions; a C++ exception destroys the members and local objects that were constructed; `__dealloc__` runs once. A thread sees an exception of another one before its next iteration; Cython checks at the same place but may see it later, which only adds iterations. The buffers of `KnnQuery::topk` are held by objects and are the subject of `C72_gpu_memory`.
* **NaN in training (C75).** Assumed of the arithmetic: IEEE 754's rules for NaN (`FloatOps.Strict`), of LAPACK `posv` and `np.linalg.solve`: a NaN on the diagonal is reported or ends up in the solution (`PosvStrict`). BLAS `axpy` may skip its work for coefficient zero. Sums run from left to right. A `+=` of the BPR kernel is one step. Overflow to infinity is not modelled separately (an infinity is just another value). The theorems about zero factors are in exact arithmetic.
* **Raising calls (C74).** Trusted: numpy checks all indices of `factors[ids] = values` before it writes the first row, and `MemoryError` is not considered; scipy gives a matrix made of at least 2^31 triples 64 bit indices, which the typed memory views of the scorer refuse with `ValueError`. Calls with out-of-bounds accesses are excluded for item-item models. The theorem about histories allows any `fit` that drops its caches (ALS, BPR on the CPU), whatever its callbacks do; on the GPU callbacks may not fill caches.
* **Files of any origin (C76).** Library behaviour assumed: `np.load(allow_pickle=False)` raises on pickled members; scipy's `check_format(full_check=False)` looks at array lengths and the ends of `indptr` only; numpy broadcasting of two square arrays. Arrays are contiguous (C or Fortran order) with the data type the class expects; member names are distinct. Only `recalculate_user`/`recalculate_item` of CPU ALS and the item-item scorer are modelled at array level.
* **The check of BLAS (C77).** What `threadpool_info` reports is data of the process; a warning filter is the set of warnings that are raised as exceptions (python's suppression of repeated warnings is not modelled; it is about display). Models are created one after the other: two threads creating the first model at the same time can both warn.
* **Rows without interactions (C78).** New users and items are put behind the old ones (C67 covers other numberings). The two runs are given the same random numbers for the old rows and the same draws; numpy hands out the numbers of one generator row by row, so a larger matrix in fact shifts the numbers of what is drawn afterwards.
* **Ways to store a matrix (C79).** Exact arithmetic: sums in another order are equal here, while float32 sums may differ in the last bits. The conversions between the formats are those of `Model/CallerData.lean` (C60); `C79_formats` is stated for `check_csr` and not composed with the query functions of each model.
* **Native ALS memory (C80).** BLAS and LAPACK by contract and with exact arithmetic: `dot`, `axpy`, `scal`, `symv` with `"U"` and `beta = 0` (the target is not read), `posv` with `"U"` (only one triangle is read; what is left in `A` is arbitrary). Rows are executed one after the other in any order by any threads; the interleaving of single instructions is the subject of C15. Strides are natural numbers, so reversed views are not covered. `malloc` never returns NULL. An exception ends the loop at once; what the other threads still write is not modelled.
* **SGD memory (C81).** Layouts are a number of cells and two strides, natural numbers, so reversed views are not covered. The arrays do not overlap. One load or store of one number is atomic in BPR; in LMF one round of an inner loop is one step, which is no restriction because other threads do not write what a row reads. An access outside an array is recorded by the thread and then carried out on memory that belongs to no array.
* **Element types (C82).** Contents are not followed, only types. By contract: numpy promotion of float types, `astype` and assignment convert any numeric type, `Generator.random` takes float32 and float64 only, `np.linalg.norm` keeps the float type, Cython's buffer types and the choice of the version of a function with fused types by the first such argument; both index arrays of a scipy matrix have one type. Complex numbers, objects and factors of integer type are not covered.
* **Rounding in item-item models (C83).** All numbers are rounded by one function: the native loops compute in `double`, and `normalize` does for float64 counts (for float32 counts, whose squares are rounded to single precision first, see `Model/RoundSingle.lean` and `C83_single_partial`; integer counts are C29). No fused multiply-add is assumed in the native loops (x86-64 baseline; on other targets the compiler may contract). Overflow is excluded, underflow is in the bounds of `fit` and `recommend` (`η`) and excluded for cosines. TF-IDF and BM25 are C99.
* **Rounding of metrics (C84).** The accumulators are `double`s and the loop is sequential, so the order of the additions is fixed. `np.log2` is taken as correctly rounded in `C84_discounts`, `C84_double` and `C84_ndcg_violated`; `C84_error` and `C84_range` take any discounts with the stated properties. `np.cumsum` adds from left to right. The errors are relative to the metrics with the discounts as they are stored. Short or repeated lists of recommendations are C33.
* **Feedback (C85).** Real arithmetic and the direct solver (`recalculate_*` always uses it on the CPU). The GPU recalculates with conjugate gradients up to a tolerance (C54) and is not covered; training with conjugate gradients has the bound of `C85_training` only.
* **Training steps (C86).** Real arithmetic, one sample or row executed without interference, and the pairs of draws equally likely (C65). Nothing is claimed about the convergence of many random steps. The GPU kernel of BPR also regularises the bias column of the user (C37) and is not covered.
* **Better lists (C87).** Exact arithmetic (C84 has the floating-point metrics). The lists must be `K` different existing items: factor models asked for more than there are repeat item 0, item-item models pad with -1 (C33).
* **Fair splits (C88).** The draws of numpy's generators are taken to be independent and uniform on a finite set of values; probabilities are numbers of outcomes. Draws that tie are resolved by `argsort`, not by chance; `C88_all_draws` bounds their effect. That `Generator.choice` picks the reserved users uniformly is not modelled.
* **Least squares in floating point (C90).** `Model/RoundALS.lean`. The operations are those of the real numbers with a relative error of at most u, without overflow and underflow. `posv` is known by its contract `StableSolver` (Higham's theorems on Cholesky factorisation). Stored values are those after `alpha` and the conversion to `float32`. For conjugate gradients (`use_cg=True`, the default of `fit`) and its python version see C91. `Model/RoundPyDirect.lean`: the python direct solver, with `np.linalg.solve` known by its contract `StableElimination` (Gaussian elimination with partial pivoting; the constant contains the growth factor).
* **Conjugate gradients in floating point (C91).** `Model/RoundCG.lean`. BLAS' `dot` and `symv` are known by the error of a sum in some order (`BlasProducts.Accurate`, shown for the plain loop and for any summation tree); no overflow, underflow or division by zero turning into NaN (the reals have no NaN, division by zero gives 0). For an empty row, which the code sets to zero, the model reports `converged` with residual 0. The bound needs a bound X for the factors after every round. Not shown: that the residual decreases. `Model/RoundCgDense.lean`: the CUDA kernel for single precision factors (half precision is not covered, nor the kernel's NaN check, as the reals have no NaN) with any accurate `dot`; `Model/RoundGpuDot.lean`: the `dot` of a thread block itself with rounded operations, for multiples of 32 up to 1024 factors and calls that do not disturb each other (C52 shows that they can); and the python `least_squares_cg` with numpy's `dot` as a summation tree.
* **The training loss in floating point (C92).** `Model/RoundLoss.lean`. The sums of the threads are added one after another, in any order (not in a tree). Of the division only its relative error is assumed. `Cui.shape[0] * Cui.shape[1]` is taken to be exact. On the GPU (`Model/RoundGpuLoss.lean`) only single precision factors, a positive multiple of 32 up to 1024, and the two integers of the divisor are rounded to single precision. No overflow, underflow or NaN.
* **Approximate models in floating point (C93).** `Model/RoundAnn.lean`. `max_norm**2` is a power of a numpy scalar, computed by another function than the squares of an array; `pow` stands for it and is only assumed to be accurate. If it is ever below the rounded square of the same number (a libm that is not correctly rounded), the longest item becomes NaN (`C93_power_below`). The index is a parameter (`Spec.NearIndex`): complete answers, errors of at most `δ` in the cosine. Faiss and batches are not included here. No overflow or underflow.
* **Overflow in LMF (C94).** `Model/Overflow.lean`. `none` stands for an infinity or NaN and never becomes finite again; in the code a step divided by an infinite sum is zero, so the model is stricter than the code. The factors, gradients and sums of squares have the precision of the factors, the logistic function and the step are computed in `double` and stored with a second rounding. `exp` of the C library is a parameter: only `0 <= exp` and `exp x <= 1` for `x <= 0` are used. Operations are rounded one by one (no fused multiply-add). The initial factors are given (they are normal random numbers in the code). The result for one kind of numbers is the model of C49 (`lmfRefitWith_eq`).
* **Example programs (C95).** `Model/Examples.lean`. A line is a triple (name, name, score); its text form, the encoding, logging and the progress bar are not modelled. After an exception the result is the error, not the part of the file written before. Training, weighting by BM25 and the choice of the model by name are not repeated: the theorems are about arbitrary factors and similarity matrices. For the approximate models see C91 and C93.
* **Range of BPR training (C96).** Exact real arithmetic, one CPU thread. Several threads may overwrite each other's updates and the GPU kernel updates all columns at once from stale values; for both the argument by cross terms fails and nothing is claimed.
* **Range of BPR training in floating point (C97).** One CPU thread and `verify_negative_samples=True`, so that the two items of a sample differ. Fused multiply-add and reordering by the compiler are not modelled. `exp` is a parameter: non-negative, and at least 15/16 of the true value for non-negative arguments; values above the largest double stand for infinity. The initial factors are given, not drawn.
* **Explanations in floating point (C98).** `row` holds the values after multiplication by `alpha`. `cho_factor` and `cho_solve` are one parameter, assumed backward stable with respect to the triangle that is read (`StableSolver`, also assumed in C90; upper triangle, so it is given the transposed matrix). The weights are represented by the matrix they factorise. Overflow and underflow are not included.
* **TF-IDF and BM25 in floating point (C99).** `numpy.log` and `numpy.log1p` are parameters with a relative error (`LogLibrary`). Python numbers take the precision of the array they meet, the mean is divided in double precision and rounded (`numpy._mean`), `X.sum(axis=1)` adds in the order of the entries (`coo_matvec`). In the sum of the mean every row sum is rounded once more before it is added, which changes nothing for numbers that are already floats. Overflow and underflow are excluded.
* **Overflow in queries (C100).** `Model/Extended.lean` adds infinities and NaN to the model of C62; signs of zeros are left out, and an infinite result has the sign of the exact one. The factors are finite numbers, not necessarily floats.
* **Initial factors (C101).** Draws are numbers in the documented range of `Generator.random` ([0,1)) and `curandGenerateUniform` ((0,1]). The normal draws of LMF have no range and are left out; so is `RandomState::randn`, which no model uses.
* **ALS with overflow (C102).** `RangeSolver` is assumed of `posv`: on systems with entries up to `P` and smallest eigenvalue at least `reg/2` it does not overflow and is backward stable with constant `κ`. What it does elsewhere is open. Results below the smallest normal number are not rounded to it (`η = 0`). The bounds are for the worst case: for single precision and millions of users they need more regularization than the default. At least one user and one item.
* **Item-item models with overflow (C103).** One thread; without overflow several threads give the same matrix to the last bit (`C15_all_pairs_round_partial`). The heap is not modelled for infinite or NaN similarities: a row with one of them ends the model with `none`. The weights of cosine, TF-IDF and BM25 are modelled with overflow (`C103_cosine_partial`, `C103_single_partial`, `C103_tfidf_partial`, `C103_bm25_partial`, without underflow: `η = 0`; the logarithms of numpy are finite). The length norm is only computed for items with ratings, since it is used for no others. In single precision BM25 needs `(2m + n + 11) u ≤ 1/4` for `n` items with at most `m` ratings each.
* **Thread blocks (C52).**  A warp runs in lock step; barriers split an execution into
  phases; a phase is any interleaving of whole shared-memory operations of the warps.

Not modelled at all: `ann` index construction parameters, the parsing of raw dataset files, `setup.py`/CMake,
logging, progress bars, and the examples and benchmarks directories.
