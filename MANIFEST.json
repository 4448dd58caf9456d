{
 "claims": [
  {
   "property": "C01",
   "status": "partial",
   "theorems": [
    "Implicit.C01_select_topk",
    "Implicit.C01_select_scores",
    "Implicit.C01_functor_topk",
    "Implicit.C01_select_heap_independent",
    "Implicit.C01_zero_undefined",
    "Implicit.C01_libstdcxx",
    "Implicit.C01_keyed",
    "Implicit.C01_floats_partial",
    "Implicit.C01_nan_violated",
    "Implicit.C01_nan_first_violated"
   ],
   "note": "Proved for every row of scores without NaN, with the heap algorithms of libstdc++ themselves (C01_libstdcxx, C01_keyed; -0.0 and 0.0 tie) and for every heap implementation meeting the push/pop/sort contract; also for the TopK functor. Missing because the code violates it: a NaN score blocks better ones (C01_nan_violated, C01_nan_first_violated)."
  },
  {
   "property": "C02",
   "status": "partial",
   "theorems": [
    "Implicit.C02_recommend_answer",
    "Implicit.C02_recommend_partial",
    "Implicit.C02_recommend_violated"
   ],
   "note": "Holds when N is at most the number of items; with N larger the answer is padded with (0, 0), see C02_recommend_violated."
  },
  {
   "property": "C03",
   "status": "proved",
   "theorems": [
    "Implicit.C03_topk_schedule",
    "Implicit.C03_recommend_batch",
    "Implicit.C03_recommend_batch_complete",
    "Implicit.C03_similar_batch",
    "Implicit.C03_similar_recalc_batch"
   ],
   "note": "recommend, similar_items, similar_users: batch equals single for every batch length, filter and factor source, in both directions; output buffers independent of any interleaving of the stores."
  },
  {
   "property": "C04",
   "status": "partial",
   "theorems": [
    "Implicit.C04_filter_answer",
    "Implicit.C04_filter_partial",
    "Implicit.C04_filter_violated",
    "Implicit.C04_no_recalculation"
   ],
   "note": "Holds when at least N items remain unfiltered; otherwise filtered items are returned with the lowest score, see C04_filter_violated."
  },
  {
   "property": "C05",
   "status": "partial",
   "theorems": [
    "Implicit.C05_items_answer",
    "Implicit.C05_items_partial",
    "Implicit.C05_items_violated"
   ],
   "note": "Exact when items has no repeats and the interaction matrix stores no explicit zeros and N is small enough for the filters; violated otherwise (C05_items_violated)."
  },
  {
   "property": "C06",
   "status": "partial",
   "theorems": [
    "Implicit.C06_user_items_rows",
    "Implicit.C06_items_and_filter",
    "Implicit.C06_items_range",
    "Implicit.C06_valid_returns",
    "Implicit.C06_array_filter_violated",
    "Implicit.C06_zero_violated"
   ],
   "note": "Row-count, items/filter_items and id-range violations raise for every input, and valid calls return; exceptions: filter_items given as the one-element array [0] is silently misapplied, and N=0 / empty items raise (the _violated theorems)."
  },
  {
   "property": "C07",
   "status": "partial",
   "theorems": [
    "Implicit.C07_similar_cosine_partial",
    "Implicit.C07_padding_violated"
   ],
   "note": "Cosine value, bound by 1 and self-similarity hold for N at most the number of entities; padding rows break it (C07_padding_violated)."
  },
  {
   "property": "C08",
   "status": "partial",
   "theorems": [
    "Implicit.C08_filter_answer",
    "Implicit.C08_plain_answer",
    "Implicit.C08_items_answer",
    "Implicit.C08_items_partial",
    "Implicit.C08_filter_partial",
    "Implicit.C08_similar_violated"
   ],
   "note": "Only eligible ids are returned when enough remain; otherwise padding or filtered ids are returned (C08_similar_violated)."
  },
  {
   "property": "C09",
   "status": "partial",
   "theorems": [
    "Implicit.C09_factors_unchanged",
    "Implicit.C09_answers",
    "Implicit.C09_order",
    "Implicit.C09_ann_recommend",
    "Implicit.C09_annoy_similar",
    "Implicit.C09_nmslib_similar",
    "Implicit.C09_faiss_recommend",
    "Implicit.C09_faiss_similar_partial",
    "Implicit.C09_faiss_similar_violated",
    "Implicit.C09_faiss_similar_writes"
   ],
   "note": "Factor models: factors unchanged by any query sequence; every query answers as on the fresh model; answers permute with the queries. Annoy, NMSLib, Faiss recommend and batch similar_items leave the factors unchanged. Missing: Faiss similar_items with a scalar id, where the code writes to the model (C09_faiss_similar_violated). GPU models: see C55."
  },
  {
   "property": "C10",
   "status": "partial",
   "theorems": [
    "Implicit.C10_history_partial",
    "Implicit.C10_answers_partial",
    "Implicit.C10_values_partial",
    "Implicit.C10_callback_violated",
    "Implicit.C10_callback_gram_violated",
    "Implicit.C10_lmf_refit_violated"
   ],
   "note": "Holds after every history of fit (of models that drop caches), partial_fit and queries whose fit callbacks make no cache-filling query. Missing: queries from callbacks and refits of logistic matrix factorisation, where the code keeps stale caches."
  },
  {
   "property": "C11",
   "status": "proved",
   "theorems": [
    "Implicit.C11_least_squares_row",
    "Implicit.C11_least_squares_py_row",
    "Implicit.C11_least_squares",
    "Implicit.C11_least_squares_py"
   ],
   "note": "Every row computed by both exact solvers (native and python) satisfies the normal equations and minimises the row loss; canonical rows (no repeated column), regularization > 0, exact arithmetic."
  },
  {
   "property": "C12",
   "status": "partial",
   "theorems": [
    "Implicit.C12_loss_value",
    "Implicit.C12_loss_partial",
    "Implicit.C12_loss_violated"
   ],
   "note": "The reported value is proved exactly for all inputs (C12_loss_value); it is the weighted objective when no stored entry is negative, otherwise larger by the confidences of negative entries."
  },
  {
   "property": "C13",
   "status": "proved",
   "theorems": [
    "Implicit.C13_solver",
    "Implicit.C13_half_iteration",
    "Implicit.C13_iteration",
    "Implicit.C13_training",
    "Implicit.C13_reported_loss"
   ],
   "note": "No row update, half-iteration, iteration or training run of any of the four solver variants increases the objective; exact arithmetic."
  },
  {
   "property": "C14",
   "status": "proved",
   "theorems": [
    "Implicit.C14_cg_residual",
    "Implicit.C14_cg_step",
    "Implicit.C14_cg_never_worse",
    "Implicit.C14_cg_converges",
    "Implicit.C14_cg_row"
   ],
   "note": "Residual and conjugacy invariants, each step decreases the energy error, at most f steps reach the normal equations' solution (tolerance 0), for python and native row code."
  },
  {
   "property": "C15",
   "status": "partial",
   "theorems": [
    "Implicit.C15_least_squares",
    "Implicit.C15_least_squares_cg",
    "Implicit.C15_topk",
    "Implicit.C15_all_pairs_partial",
    "Implicit.C15_all_pairs_round_partial"
   ],
   "note": "ALS rows, top-k batch rows and nearest-neighbour rows under every schedule; all_pairs_knn only while item_count*K <= 2^31 (see C24). C15_all_pairs_round_partial: the same for nearest neighbours in floating point, to the last bit."
  },
  {
   "property": "C16",
   "status": "partial",
   "theorems": [
    "Implicit.C16_native_partial",
    "Implicit.C16_python_direct_partial",
    "Implicit.C16_python_cg_partial",
    "Implicit.C16_python_cg_violated",
    "Implicit.C16_rows_independent"
   ],
   "note": "Native solvers and the python direct solver give a zero factor; the python CG solver only up to the stopping tolerance when cg_steps >= factors, and not at all with fewer steps (C16_python_cg_violated)."
  },
  {
   "property": "C17",
   "status": "proved",
   "theorems": [
    "Implicit.C17_row_count",
    "Implicit.C17_recalculate_user",
    "Implicit.C17_recalculate_item",
    "Implicit.C17_training",
    "Implicit.C17_independent",
    "Implicit.C17_recommend",
    "Implicit.C17_item_rows_unchecked"
   ],
   "note": "For every state with coherent caches (invariant, C10); also shows that recalculate_item does not check the number of rows (C17_item_rows_unchecked)."
  },
  {
   "property": "C18",
   "status": "proved",
   "theorems": [
    "Implicit.C18_users",
    "Implicit.C18_items",
    "Implicit.C18_users_error",
    "Implicit.C18_items_error",
    "Implicit.C18_users_returns",
    "Implicit.C18_items_returns",
    "Implicit.C18_users_idempotent",
    "Implicit.C18_items_idempotent",
    "Implicit.C18_history"
   ],
   "note": "CPU model. Rows named more than once: the last occurrence counts. Error cases and arbitrary histories included."
  },
  {
   "property": "C19",
   "status": "proved",
   "theorems": [
    "Implicit.C19_explain",
    "Implicit.C19_all_listed",
    "Implicit.C19_weights",
    "Implicit.C19_recommend"
   ],
   "note": "Total, contributions, top-N list, reuse of user_weights and agreement with recommend, for any heap implementation and any solver of positive definite systems."
  },
  {
   "property": "C20",
   "status": "partial",
   "theorems": [
    "Implicit.C20_cpu_fit_partial",
    "Implicit.C20_cpu_epoch",
    "Implicit.C20_cpu_recalculate",
    "Implicit.C20_cpu_partial_fit",
    "Implicit.C20_cpu_explain",
    "Implicit.C20_gpu_recalculate",
    "Implicit.C20_gpu_violated",
    "Implicit.C20_gpu_fit_ignores_alpha"
   ],
   "note": "Holds for CPU fit, recalculation, partial_fit, explain and for GPU recalculation; GPU fit ignores alpha (C20_gpu_violated)."
  },
  {
   "property": "C21",
   "status": "partial",
   "theorems": [
    "Implicit.C21_cpu_partial",
    "Implicit.C21_cpu_raises",
    "Implicit.C21_cpu_exact",
    "Implicit.C21_gpu_exact",
    "Implicit.C21_als",
    "Implicit.C21_gpu_violated"
   ],
   "note": "CPU models, arbitrary epochs: fit returns the outcome of its epochs exactly if that has no NaN (C21_cpu_exact). The GPU models have no check (C21_gpu_violated)."
  },
  {
   "property": "C22",
   "status": "proved",
   "theorems": [
    "Implicit.C22_round",
    "Implicit.C22_rounds",
    "Implicit.C22_bound_needed"
   ],
   "note": "SparseMatrixMultiplier add/foreach over any number of rounds, indices below the constructed size."
  },
  {
   "property": "C23",
   "status": "partial",
   "theorems": [
    "Implicit.C23_rows_partial",
    "Implicit.C23_padding_violated",
    "Implicit.C23_extra_violated"
   ],
   "note": "Exact for all rows except row 0, which may receive the padding entry (0, 0.0); with item_count*K <= 2^31."
  },
  {
   "property": "C24",
   "status": "partial",
   "theorems": [
    "Implicit.C24_slots_partial",
    "Implicit.C24_no_overrun_partial",
    "Implicit.C24_disjoint_violated",
    "Implicit.C24_overrun_violated"
   ],
   "note": "Slots are disjoint and in bounds while item_count*K <= 2^31; beyond, the 32-bit product wraps."
  },
  {
   "property": "C25",
   "status": "proved",
   "theorems": [
    "Implicit.C25_scores",
    "Implicit.C25_scores_filtered",
    "Implicit.C25_history",
    "Implicit.C25_batch",
    "Implicit.C25_first_row_only"
   ],
   "note": "Scores of scalar and batch queries; also that a scalar query reads row 0 of user_items whatever the user id."
  },
  {
   "property": "C26",
   "status": "partial",
   "theorems": [
    "Implicit.C26_positive_partial",
    "Implicit.C26_liked_score",
    "Implicit.C26_liked_violated",
    "Implicit.C26_negative_violated"
   ],
   "note": "Holds when at least N other candidates score positively; liked items are set to 0 rather than removed."
  },
  {
   "property": "C27",
   "status": "partial",
   "theorems": [
    "Implicit.C27_filter_partial",
    "Implicit.C27_batch",
    "Implicit.C27_too_many_violated"
   ],
   "note": "Filtered items never appear and the first N results are exact; batches are exact. A scalar query may return up to N+|F| results."
  },
  {
   "property": "C28",
   "status": "partial",
   "theorems": [
    "Implicit.C28_items",
    "Implicit.C28_errors",
    "Implicit.C28_rank_items",
    "Implicit.C28_batch_violated",
    "Implicit.C28_repeats_violated"
   ],
   "note": "Scalar queries and rank_items for different valid ids; batches of more than N selected items are cut to N, repeated ids are inconsistent."
  },
  {
   "property": "C29",
   "status": "partial",
   "theorems": [
    "Implicit.C29_cells",
    "Implicit.C29_unit",
    "Implicit.C29_cosine_partial",
    "Implicit.C29_range",
    "Implicit.C29_tfidf_partial",
    "Implicit.C29_tfidf_positive_partial",
    "Implicit.C29_bm25_positive_partial",
    "Implicit.C29_bm25_partial",
    "Implicit.C29_idf_violated",
    "Implicit.C29_negative_idf",
    "Implicit.C29_integers_partial",
    "Implicit.C29_integers_violated"
   ],
   "note": "Cells, unit rows, cosine/TF-IDF/BM25 similarity after fit (row 0 see C23), positivity and strict monotonicity for users with fewer than n-1 ratings; real arithmetic; integer counts as long as their squares fit into the type (violated beyond that)."
  },
  {
   "property": "C30",
   "status": "partial",
   "theorems": [
    "Implicit.C30_sum_partial",
    "Implicit.C30_partition_partial",
    "Implicit.C30_negative_violated"
   ],
   "note": "train_test_split: every rating goes to exactly one part with its value; train + test = ratings holds for matrices without negative values (test drops negative ratings and stored zeros, C30_negative_violated)."
  },
  {
   "property": "C31",
   "status": "partial",
   "theorems": [
    "Implicit.C31_split_partial",
    "Implicit.C31_keys_exact",
    "Implicit.C31_keys_float",
    "Implicit.C31_reserved_partial",
    "Implicit.C31_errors",
    "Implicit.C31_gap_violated",
    "Implicit.C31_reserved_violated",
    "Implicit.C31_float_violated"
   ],
   "note": "Exactly K ratings per eligible user in test, every rating in exactly one part, all argsort/shuffle outcomes and any rounding of the sort keys that keeps users apart: exact sums always do (C31_keys_exact), binary floats do unless a draw is tiny (C31_keys_float), and without that the claim fails (C31_float_violated). Test values and train+test=ratings only when eligible ids have no gaps (C31_gap_violated); train-only users are drawn as positions but compared with ids (C31_reserved_violated); with ids 0..n-1 exactly max(1, floor(n*size)) users are kept (C31_reserved_partial). The float32 product in _choose is exact in the model."
  },
  {
   "property": "C32",
   "status": "partial",
   "theorems": [
    "Implicit.C32_train_test",
    "Implicit.C32_unseeded",
    "Implicit.C32_leave_k_out_violated",
    "Implicit.C32_legacy_violated",
    "Implicit.C32_leave_k_out_partial"
   ],
   "note": "train_test_split is reproducible from a seed. leave_k_out_split is not (global np.random in _take_tails, C32_leave_k_out_violated); the users held out and counts are. RandomState arguments raise AttributeError (C32_legacy_violated)."
  },
  {
   "property": "C33",
   "status": "partial",
   "theorems": [
    "Implicit.C33_unit_partial",
    "Implicit.C33_discount",
    "Implicit.C33_factor_model_partial",
    "Implicit.C33_repeat_violated",
    "Implicit.C33_pad_violated"
   ],
   "note": "All four metrics are in [0,1] for every model that returns K distinct existing items per user, any batch size, discounts 1/log2(i+2) (C33_discount); end to end for CPU factor models with K <= items. Violated by repeated ids (K > items, C33_repeat_violated) and -1 padding of item-item models (negative AUC, C33_pad_violated)."
  },
  {
   "property": "C34",
   "status": "partial",
   "theorems": [
    "Implicit.C34_metrics",
    "Implicit.C34_ideal",
    "Implicit.C34_perfect_partial",
    "Implicit.C34_perfect_violated"
   ],
   "note": "ranking_metrics_at_k equals the textbook definitions (AUC as pair counting, MAP, NDCG with true optimum, micro-averaged precision) for every batch size and every model returning K distinct existing items; perfect lists score 1, except AUC when a user has more than K relevant items (C34_perfect_violated)."
  },
  {
   "property": "C35",
   "status": "proved",
   "theorems": [
    "Implicit.C35_choice",
    "Implicit.C35_cpu",
    "Implicit.C35_gpu"
   ],
   "note": "Choice of triples proved for every draw, every unsorted matrix; CPU and GPU updates under every interleaving at the granularity of single loads and stores. Trusted: uniform_int_distribution range, has_sorted_indices computed by scipy."
  },
  {
   "property": "C36",
   "status": "partial",
   "theorems": [
    "Implicit.C36_untouched",
    "Implicit.C36_fit",
    "Implicit.C36_refit",
    "Implicit.C36_gpu_cold_partial",
    "Implicit.C36_gpu_violated"
   ],
   "note": "CPU: proved for every draw sequence, epoch count and interleaving. GPU: cold rows proved; the user bias column is trained by the kernel (guard compares with cols), violation proved."
  },
  {
   "property": "C37",
   "status": "partial",
   "theorems": [
    "Implicit.C37_sigmoid",
    "Implicit.C37_bpr_sig",
    "Implicit.C37_bpr",
    "Implicit.C37_distinct",
    "Implicit.C37_alias_violated",
    "Implicit.C37_gpu_bpr_partial",
    "Implicit.C37_lmf",
    "Implicit.C37_lmf_step"
   ],
   "note": "BPR step proved to be exactly learning_rate times the gradient whenever the two items differ (always so with verify_negative_samples), on the CPU and, for every interleaving of the threads of a block, on the GPU (where the user bias column moves as well); LMF row update proved to be an Adagrad ascent step of the stated log-likelihood; sigmoid forms equal and in (0,1). The aliased case (verify off, same item drawn twice) violates. Single sample without interference, real arithmetic."
  },
  {
   "property": "C38",
   "status": "partial",
   "theorems": [
    "Implicit.C38_epochs",
    "Implicit.C38_fit",
    "Implicit.C38_total",
    "Implicit.C38_parallel",
    "Implicit.C38_negatives_partial",
    "Implicit.C38_negatives_violated",
    "Implicit.C38_negatives_bound",
    "Implicit.C38_no_iterations"
   ],
   "note": "Bias columns, cold rows and parallel rows proved for every draw stream, schedule and iteration count. Number of negatives: proved equal to min(columns, count*neg_prop) per row; the cap is the number of factor columns rather than the catalogue size (violation proved)."
  },
  {
   "property": "C39",
   "status": "partial",
   "theorems": [
    "Implicit.C39_als_partial",
    "Implicit.C39_bpr_partial",
    "Implicit.C39_lmf_partial",
    "Implicit.C39_pathlib_violated",
    "Implicit.C39_generator_violated",
    "Implicit.C39_seed_violated",
    "Implicit.C39_knn_partial",
    "Implicit.C39_bm25_violated",
    "Implicit.C39_knn_pickle",
    "Implicit.C39_gpu_als_partial",
    "Implicit.C39_gpu_bpr",
    "Implicit.C39_gpu_cg_steps_violated",
    "Implicit.C39_gpu_pickle"
   ],
   "note": "Round trip proved for the CPU ALS, BPR and LMF models, the GPU ALS model and the item-item models (K, similarity, scorer), for every str path and every pathlib path with suffix, every state with a 64-bit integer seed or none; pickling proved lossless for item-item and GPU models. Violations: pathlib path without suffix, generator or large seed, item-item num_threads and BM25 K1/B. numpy savez/load trusted; file objects not modelled."
  },
  {
   "property": "C40",
   "status": "partial",
   "theorems": [
    "Implicit.C40_als_partial",
    "Implicit.C40_als_gpu_partial",
    "Implicit.C40_bpr_partial",
    "Implicit.C40_bpr_gpu_partial",
    "Implicit.C40_options_violated",
    "Implicit.C40_bpr_options_violated",
    "Implicit.C40_float64_violated",
    "Implicit.C40_fortran_violated"
   ],
   "note": "Factors and the carried hyper-parameters proved preserved in both directions for ALS and BPR with row-major float16/float32 factors. Violations: use_native, use_cg, num_threads, cg_steps (ALS), dtype, num_threads (BPR) are reset; float64 factors raise; column-major factors arrive scrambled."
  },
  {
   "property": "C41",
   "status": "proved",
   "theorems": [
    "Implicit.C41_augment_ok",
    "Implicit.C41_equal_norms",
    "Implicit.C41_scores",
    "Implicit.C41_order",
    "Implicit.C41_annoy_recommend",
    "Implicit.C41_nmslib_recommend"
   ],
   "note": "In exact real arithmetic: equal norms, scores, order, and recommend of Annoy/NMSLib with an exact index ranks by inner product (filter_items given as list or None)."
  },
  {
   "property": "C42",
   "status": "partial",
   "theorems": [
    "Implicit.C42_ann_recommend_one",
    "Implicit.C42_ann_recommend_batch",
    "Implicit.C42_faiss_recommend_one",
    "Implicit.C42_ann_recommend_exact_partial",
    "Implicit.C42_faiss_recommend_exact_partial",
    "Implicit.C42_nmslib_similar_exact_partial",
    "Implicit.C42_batch_filter_exact_partial",
    "Implicit.C42_annoy_similar_violated",
    "Implicit.C42_batch_filter_violated",
    "Implicit.C42_array_filter_violated",
    "Implicit.C42_faiss_not_approximate_violated",
    "Implicit.C42_ann_batch_needs_rows",
    "Implicit.C42_missing_history",
    "Implicit.C42_similar_exact",
    "Implicit.C42_recommend_exact",
    "Implicit.C42_recalculate_without_rows",
    "Implicit.C42_nmslib_rows"
   ],
   "note": "Soundness (filters and N honoured for arbitrary index answers) for recommend of Annoy/NMSLib/Faiss; exactness with an exact index for recommend and scalar NMSLib similar_items, and for batch filters when enough items remain; switched off models answer similar_items and recommend as the wrapped model, recalculation without item_users raises, rows of a batch have one length. Missing: Annoy similar_items with filter, short batch rows, array filters (code violates), Faiss use_gpu delegation."
  },
  {
   "property": "C43",
   "status": "proved",
   "theorems": [
    "Implicit.C43_batch",
    "Implicit.C43_batch_sound"
   ],
   "note": "For every single-query function that does not change its state: success iff all single queries succeed, N columns, alignment and padding."
  },
  {
   "property": "C44",
   "status": "partial",
   "theorems": [
    "Implicit.C44_prefix",
    "Implicit.C44_complete_partial",
    "Implicit.C44_download",
    "Implicit.C44_stuck",
    "Implicit.C44_crash_violated",
    "Implicit.C44_closed_violated"
   ],
   "note": "For every history of crashes and cut connections the cache holds a prefix of the content; a returned dataset is proved complete assuming the HDF5 reader rejects truncated files. The code itself has no check (violation), and a partial file is never repaired."
  },
  {
   "property": "C45",
   "status": "partial",
   "theorems": [
    "Implicit.C45_plan",
    "Implicit.C45_positive",
    "Implicit.C45_rows_partial",
    "Implicit.C45_stride_violated",
    "Implicit.C45_memory_violated",
    "Implicit.C45_half_violated",
    "Implicit.C45_plan_violated",
    "Implicit.C45_filter_violated",
    "Implicit.C45_pool",
    "Implicit.C45_blocks",
    "Implicit.C45_blocks_violated",
    "Implicit.C45_filter_distance",
    "Implicit.C45_gemm",
    "Implicit.C45_flat",
    "Implicit.C45_memory_partial",
    "Implicit.C45_arguments",
    "Implicit.C45_lowest_violated"
   ],
   "note": "Row alignment proved from the constructor (pool size) to the answer, on flat device memory with the column-major cuBLAS call, for every batch size, every stale buffer content and k up to the number of items; argument checks and the score of filtered items proved; violated for k larger than the catalogue, half precision factors, wrapped memory counter, the 256 byte blocks of the pool with few results, unchecked filter ids and items scoring -FLT_MAX."
  },
  {
   "property": "C46",
   "status": "partial",
   "theorems": [
    "Implicit.C46_step",
    "Implicit.C46_session_partial",
    "Implicit.C46_defined_partial",
    "Implicit.C46_undefined",
    "Implicit.C46_read",
    "Implicit.C46_construct_violated",
    "Implicit.C46_ids_violated",
    "Implicit.C46_assign_range_violated",
    "Implicit.C46_assign_slice_violated",
    "Implicit.C46_assign_length_violated",
    "Implicit.C46_assign_duplicate_violated",
    "Implicit.C46_assign_alias_violated",
    "Implicit.C46_shared_violated"
   ],
   "note": "Value semantics proved for sessions of any length under conditions that the code does not check (C-contiguous arrays, 32 bit ids, one valid distinct id per source row, unshared target); each condition has a violation theorem."
  },
  {
   "property": "C47",
   "status": "partial",
   "theorems": [
    "Implicit.C47_recommend_all_partial",
    "Implicit.C47_recommend_all_complete_partial",
    "Implicit.C47_offset_violated"
   ],
   "note": "Equal to recommend for offset 0; for another offset with filtering or recalculation the call always raises (C47_offset_violated)."
  },
  {
   "property": "C48",
   "status": "partial",
   "theorems": [
    "Implicit.C48_cpu_accepts_partial",
    "Implicit.C48_cpu_equal",
    "Implicit.C48_cpu_legacy_violated",
    "Implicit.C48_gpu_accepts",
    "Implicit.C48_gpu_equal_partial",
    "Implicit.C48_gpu_zero_violated"
   ],
   "note": "Equal integer seeds and generators proved to give equal initial state (CPU: every seed, GPU: every non-zero seed). Violations: RandomState on the CPU raises AttributeError; seed 0 on the GPU uses the clock."
  },
  {
   "property": "C49",
   "status": "partial",
   "theorems": [
    "Implicit.C49_wellformed",
    "Implicit.C49_rows",
    "Implicit.C49_refines",
    "Implicit.C49_cg",
    "Implicit.C49_loss",
    "Implicit.C49_least_squares",
    "Implicit.C49_gpu",
    "Implicit.C49_history_partial",
    "Implicit.C49_refit_violated",
    "Implicit.C49_refit_items_violated",
    "Implicit.C49_recalculate_user_violated",
    "Implicit.C49_recalculate_item_violated",
    "Implicit.C49_gpu_refit_violated",
    "Implicit.C49_gpu_overflow_violated",
    "Implicit.C49_gpu_loss",
    "Implicit.C49_gpu_loss_violated",
    "Implicit.C49_shared",
    "Implicit.C49_loss_shared",
    "Implicit.C49_loss_shared_violated",
    "Implicit.C49_bpr",
    "Implicit.C49_bpr_refit_violated",
    "Implicit.C49_lmf",
    "Implicit.C49_lmf_refit_violated"
   ],
   "note": "Exact conditions under which the native ALS loops (CPU CG, exact, loss; GPU solver) leave their arrays, refinement from the CSR arrays to the row models, and safety of every history of fits, partial fits and recalculations with data of the model's shape; BPR and LMF likewise. Missing: the python layer does not enforce the shapes, so refitting on another shape, recalculate_user with unknown columns, recalculate_item with missing rows, GPU models above 2^31 values and the GPU loss are violations (proved)."
  },
  {
   "property": "C50",
   "status": "proved",
   "theorems": [
    "Implicit.C50_counters",
    "Implicit.C50_skipped",
    "Implicit.C50_report",
    "Implicit.C50_gpu"
   ],
   "note": "Counters proved for every draw sequence and interleaving, CPU and GPU; the reported percentages are in [0,100] and never divide by zero."
  },
  {
   "property": "C51",
   "status": "partial",
   "theorems": [
    "Implicit.C51_neighbours",
    "Implicit.C51_filter",
    "Implicit.C51_items",
    "Implicit.C51_fitted_partial",
    "Implicit.C51_errors",
    "Implicit.C51_batch",
    "Implicit.C51_list_violated"
   ],
   "note": "Single, filtered, restricted and batch queries exact; after fit except for item 0 (padding entry of C23). items given as a list raises TypeError."
  },
  {
   "property": "C52",
   "status": "partial",
   "theorems": [
    "Implicit.C52_single_warp_partial",
    "Implicit.C52_calls_partial",
    "Implicit.C52_dot_partial",
    "Implicit.C52_thread0_partial",
    "Implicit.C52_race_violated",
    "Implicit.C52_als_violated",
    "Implicit.C52_padding_violated"
   ],
   "note": "Proved for every schedule of kernels with a barrier between any two calls, for single-warp blocks, and for thread 0 in kernels whose inputs do not depend on earlier results (the norm kernel); requires full warps or absent lanes that deliver zeros. Missing because false: consecutive calls without a barrier (C52_race_violated, C52_als_violated) and numbers of factors that are not multiples of 32 (C52_padding_violated). Warps run in lock step."
  },
  {
   "property": "C53",
   "status": "partial",
   "theorems": [
    "Implicit.C53_recommend_partial",
    "Implicit.C53_recommend_one_partial",
    "Implicit.C53_recalculate_partial",
    "Implicit.C53_items_partial",
    "Implicit.C53_similar_partial",
    "Implicit.C53_similar_one_partial",
    "Implicit.C53_similar_items_partial",
    "Implicit.C53_similar_recalculated_partial",
    "Implicit.C53_agrees_partial",
    "Implicit.C53_agrees_items_partial",
    "Implicit.C53_agrees_similar_partial",
    "Implicit.C53_errors",
    "Implicit.C53_empty_filter_violated",
    "Implicit.C53_empty_user_violated",
    "Implicit.C53_recommend_violated",
    "Implicit.C53_similar_items_violated",
    "Implicit.C53_recalculate_violated"
   ],
   "note": "Rankings for every valid query, agreement with the CPU up to ties; similar_items with recalculated factors ranks by the recalculated vectors (C53_similar_recalculated_partial); violated for empty filters, users without interactions, too few eligible items, N beyond the candidates, and recalculated items."
  },
  {
   "property": "C54",
   "status": "partial",
   "theorems": [
    "Implicit.C54_gram",
    "Implicit.C54_least_squares_partial",
    "Implicit.C54_solver",
    "Implicit.C54_fit",
    "Implicit.C54_training_partial",
    "Implicit.C54_recalculate",
    "Implicit.C54_loss_partial",
    "Implicit.C54_loss_value_partial"
   ],
   "note": "Every interleaving of the thread blocks, every grid size and every order of atomic additions give the factors and loss of the CPU native CG solver; objective monotone; recalculation meets the tolerance. Missing: lock step inside a block and correct cooperative dot products are assumed (see C52), floating point rounding, half precision, NaN fallback."
  },
  {
   "property": "C55",
   "status": "partial",
   "theorems": [
    "Implicit.C55_queries",
    "Implicit.C55_history_partial",
    "Implicit.C55_answers_partial",
    "Implicit.C55_values_partial",
    "Implicit.C55_link",
    "Implicit.C55_callback_violated",
    "Implicit.C55_callback_gram_violated",
    "Implicit.C55_half_violated"
   ],
   "note": "Queries never change factors; caches match after any history whose fit callbacks make only plain recommend calls and, for partial_fit, in single precision; answers and explicit values follow. Violated by queries from a callback and by half precision partial_fit."
  },
  {
   "property": "C56",
   "status": "partial",
   "theorems": [
    "Implicit.C56_users_partial",
    "Implicit.C56_items_partial",
    "Implicit.C56_order_partial",
    "Implicit.C56_errors_partial",
    "Implicit.C56_untouched",
    "Implicit.C56_duplicate_violated",
    "Implicit.C56_half_violated",
    "Implicit.C56_negative_violated",
    "Implicit.C56_empty_user_violated"
   ],
   "note": "Single precision, non-negative ids, at least one stored entry: exactly the named rows change, in any order of device writes; distinct ids give the CPU's table update. Violated by repeated ids, half precision, negative ids and users without interactions."
  },
  {
   "property": "C57",
   "status": "partial",
   "theorems": [
    "Implicit.C57_als",
    "Implicit.C57_bpr_partial",
    "Implicit.C57_lmf",
    "Implicit.C57_gpu_als_class",
    "Implicit.C57_gpu_bpr_class_partial",
    "Implicit.C57_cpu_als_class",
    "Implicit.C57_cpu_bpr_class",
    "Implicit.C57_cpu_lmf_class",
    "Implicit.C57_annoy",
    "Implicit.C57_faiss",
    "Implicit.C57_nmslib",
    "Implicit.C57_positional_violated",
    "Implicit.C57_gpu_bpr_dtype_violated",
    "Implicit.C57_nmslib_kwargs_violated"
   ],
   "note": "Proved for ALS and LMF and, with at most six positional arguments, for the Annoy, NMSLib and Faiss variants; every call that does not fit raises TypeError. BPR: all but dtype on the GPU. Violated: seven or more positional arguments of the approximate variants, dtype of GPU BPR, misspelt keywords of NMSLibModel."
  },
  {
   "property": "C58",
   "status": "partial",
   "theorems": [
    "Implicit.C58_sketchfab_partial",
    "Implicit.C58_reddit_partial",
    "Implicit.C58_lastfm_partial",
    "Implicit.C58_lastfm_orientation_violated",
    "Implicit.C58_msd_partial",
    "Implicit.C58_msd_filename_violated",
    "Implicit.C58_msd_track_violated",
    "Implicit.C58_movielens_partial",
    "Implicit.C58_movielens_object_violated",
    "Implicit.C58_missing_violated",
    "Implicit.C58_empty",
    "Implicit.C58_missing_group",
    "Implicit.C58_missing_names"
   ],
   "note": "Proved for every non-empty table, with the conditions under which the code works: no identifier that pandas takes for a missing value (sketchfab, reddit, million song), np.object available (movielens, million song), triplets in train_triplets.txt and every track in the summary (million song). For lastfm the matrix is the transpose. A file without the expected group or names raises an exception (C58_missing_group, C58_missing_names). Each condition is shown necessary by a _violated theorem. pandas, scipy and h5py by contract."
  },
  {
   "property": "C59",
   "status": "partial",
   "theorems": [
    "Implicit.C59_recommend",
    "Implicit.C59_allowed",
    "Implicit.C59_annoy_similar_partial",
    "Implicit.C59_nmslib_similar_partial",
    "Implicit.C59_faiss_recommend_partial",
    "Implicit.C59_faiss_similar_partial",
    "Implicit.C59_unfitted",
    "Implicit.C59_failed_fit",
    "Implicit.C59_faiss_small_violated",
    "Implicit.C59_stale_violated",
    "Implicit.C59_nmslib_zero_violated",
    "Implicit.C59_faiss_stale_violated",
    "Implicit.C59_faiss_padding_violated"
   ],
   "note": "Proved for recommend of Annoy and NMSLib over all histories that do not change item factors behind the wrapper; with restrictions stated in the theorems for similar_items and for Faiss. Violated: item factors changed through the wrapped model, zero factors in NMSLib, single-item similar_items and padding in Faiss, catalogues smaller than nlist."
  },
  {
   "property": "C60",
   "status": "partial",
   "theorems": [
    "Implicit.C60_others",
    "Implicit.C60_bpr_partial",
    "Implicit.C60_gpu_bpr_partial",
    "Implicit.C60_lmf_partial",
    "Implicit.C60_als",
    "Implicit.C60_recalculate",
    "Implicit.C60_weights_partial",
    "Implicit.C60_recommend_items",
    "Implicit.C60_recommend_plain",
    "Implicit.C60_split",
    "Implicit.C60_order_violated",
    "Implicit.C60_shared_violated",
    "Implicit.C60_weights_shared_violated"
   ],
   "note": "Proved for ALS, recalculation, recommend, train_test_split and (new data, nothing changed) the weights. Missing: BPR and LMF sort an unsorted float32 CSR argument in place, which also alters matrices sharing its indices; weights of a COO argument share row and col (C60_order_violated, C60_shared_violated, C60_weights_shared_violated)."
  },
  {
   "property": "C61",
   "status": "partial",
   "theorems": [
    "Implicit.C61_topk",
    "Implicit.C61_topk_violated",
    "Implicit.C61_knn",
    "Implicit.C61_knn_violated",
    "Implicit.C61_als",
    "Implicit.C61_lmf",
    "Implicit.C61_gpu_als",
    "Implicit.C61_gpu_als_violated",
    "Implicit.C61_gpu_rows",
    "Implicit.C61_gpu_als_rows",
    "Implicit.C61_gpu_als_cover",
    "Implicit.C61_gpu_bpr_samples",
    "Implicit.C61_gpu_bpr_violated",
    "Implicit.C61_gpu_knn"
   ],
   "note": "Positions exact on exactly characterised ranges of sizes (iff theorems): CPU top-k, all_pairs_knn, CPU ALS, LMF, GPU ALS, GPU BPR loops; for all sizes in memory: GPU norms, GPU BPR rows, GPU ALS loop, GPU top-k within its temporary memory. Beyond those ranges the code overflows: C61_topk_violated, C61_knn_violated, C61_gpu_als_violated, C61_gpu_bpr_violated."
  },
  {
   "property": "C62",
   "status": "partial",
   "theorems": [
    "Implicit.C62_score",
    "Implicit.C62_recommend",
    "Implicit.C62_separated",
    "Implicit.C62_similar",
    "Implicit.C62_similar_float32",
    "Implicit.C62_underflow_violated",
    "Implicit.C62_exact_violated"
   ],
   "note": "Proved for every rounding with bounded error and every order of summation. Cosine bound needs absence of underflow: C62_underflow_violated gives a normal float32 vector whose similarity to itself is 0. C62_exact_violated shows that the exact ranking cannot be expected. Overflow is C100. For training in floating point see C90."
  },
  {
   "property": "C63",
   "status": "partial",
   "theorems": [
    "Implicit.C63_fit",
    "Implicit.C63_fit_1024",
    "Implicit.C63_recalculate",
    "Implicit.C63_others",
    "Implicit.C63_fit_untrained",
    "Implicit.C63_least_squares",
    "Implicit.C63_loss",
    "Implicit.C63_unregularised_violated",
    "Implicit.C63_no_columns",
    "Implicit.C63_fit_violated",
    "Implicit.C63_recalculate_violated",
    "Implicit.C63_others_violated",
    "Implicit.C63_scratch",
    "Implicit.C63_scratch_after_P",
    "Implicit.C63_scratch_violated"
   ],
   "note": "Proved whenever the device accepts the launches (on every CUDA device: 1 to 1024 columns, at least 2 for the loss in half precision). Violated beyond: no call asks for the launch error, so training, recalculation, loss, norms and BPR return untouched or zero arrays (C63_fit_violated, C63_recalculate_violated, C63_others_violated)."
  },
  {
   "property": "C64",
   "status": "proved",
   "theorems": [
    "Implicit.C64_bounded",
    "Implicit.C64_movement",
    "Implicit.C64_fixed_points",
    "Implicit.C64_gradient",
    "Implicit.C64_eventually",
    "Implicit.C64_cg_keeps_small_gradients"
   ],
   "note": "Exact arithmetic. Bounds hold for all iterations and all four solvers; convergence of the factors themselves to one point is not claimed (only that movements are square-summable and gradients vanish). C64_cg_keeps_small_gradients shows that the exact characterisation of fixed points is for the direct solvers only: conjugate gradients leave gradients below 1e-20 alone."
  },
  {
   "property": "C65",
   "status": "partial",
   "theorems": [
    "Implicit.C65_draw",
    "Implicit.C65_pair",
    "Implicit.C65_bpr",
    "Implicit.C65_cold_items",
    "Implicit.C65_gpu_words",
    "Implicit.C65_gpu",
    "Implicit.C65_gpu_violated",
    "Implicit.C65_lmf",
    "Implicit.C65_lmf_own_items_violated"
   ],
   "note": "CPU draws exactly uniform; BPR and LMF samples with exact proportions. Missing: on the GPU the remainder favours the first entries, proved within a factor (q+1)^2/q^2 with q = 2^32/nnz, equality is false; LMF negatives may be own items of the user. Words of the generators are assumed uniform."
  },
  {
   "property": "C66",
   "status": "partial",
   "theorems": [
    "Implicit.C66_order",
    "Implicit.C66_argument_first",
    "Implicit.C66_passive",
    "Implicit.C66_sees",
    "Implicit.C66_stop",
    "Implicit.C66_interrupted",
    "Implicit.C66_changes",
    "Implicit.C66_als",
    "Implicit.C66_als_resume",
    "Implicit.C66_gpu_als_resume",
    "Implicit.C66_bpr_resume",
    "Implicit.C66_lmf_resume_violated",
    "Implicit.C66_falsy_violated",
    "Implicit.C66_elapsed",
    "Implicit.C66_elapsed_violated",
    "Implicit.C66_signature_violated",
    "Implicit.C66_gpu_assign_violated",
    "Implicit.C66_checked"
   ],
   "note": "Order, choice of the callback, what it sees, stopping, resuming and the effect of changes proved for any loop body and any callback; monotone losses for ALS; fitting again proved equal to one longer fit for ALS, GPU ALS and BPR. Violated: LMF restarts its sums of squared derivatives on every fit; a callable with truth value false is never called; time.time() can go back; the number of callback arguments differs (3, 4, 2) so no fixed signature serves all models; factors assigned by a callback on the GPU are not trained."
  },
  {
   "property": "C67",
   "status": "partial",
   "theorems": [
    "Implicit.C67_rename",
    "Implicit.C67_rename_gpu",
    "Implicit.C67_recommend_partial",
    "Implicit.C67_rotate",
    "Implicit.C67_rotate_gpu",
    "Implicit.C67_rotate_recommend",
    "Implicit.C67_rotate_similar",
    "Implicit.C67_rotate_loss",
    "Implicit.C67_rotate_recalculate",
    "Implicit.C67_ties_violated",
    "Implicit.C67_knn",
    "Implicit.C67_knn_recommend",
    "Implicit.C67_weighted",
    "Implicit.C67_knn_ties_violated",
    "Implicit.C67_knn_first_violated",
    "Implicit.C67_bpr",
    "Implicit.C67_lmf",
    "Implicit.C67_similar",
    "Implicit.C67_similar_filter",
    "Implicit.C67_similar_items"
   ],
   "note": "Renaming: ALS training proved for all four CPU solvers and the GPU for any data (errors correspond); BPR and LMF training proved for every run, the draws being the positions of the renamed entries (C67_bpr, C67_lmf); item-item models with and without weights proved: neighbours with the same similarities, without ties the renamed neighbours, and recommend (C67_knn, C67_weighted, C67_knn_recommend; not in the row of item 0 and not where neighbours tie: C67_knn_first_violated, C67_knn_ties_violated); similar_items proved for every N, with a filter and among given items for a full answer; recommend proved for a full answer with filters (C67_recommend_partial: at least N candidates, one user, no restriction). Same scores always, renamed items when there are no ties (C67_ties_violated otherwise). Rotating: proved for ALS training, recommend, similar, loss and recalculate. Missing: the GPU BPR sampler (its reduction modulo the number of entries is not uniform)."
  },
  {
   "property": "C68",
   "status": "partial",
   "theorems": [
    "Implicit.C68_direct",
    "Implicit.C68_fit",
    "Implicit.C68_recalculate",
    "Implicit.C68_eventually",
    "Implicit.C68_recommend",
    "Implicit.C68_recalc_order",
    "Implicit.C68_item_item",
    "Implicit.C68_cg_violated"
   ],
   "note": "Proved for training with the direct solvers, recalculation on CPU and GPU, and batches of recommend. With the default conjugate gradient solver equality fails (C68_cg_violated); proved instead that the factors come arbitrarily close, down to the resolution of the tolerance, and stay close (C68_eventually). BPR and LMF are random and not covered."
  },
  {
   "property": "C69",
   "status": "partial",
   "theorems": [
    "Implicit.C69_type_error",
    "Implicit.C69_same_values",
    "Implicit.C69_recommend_partial",
    "Implicit.C69_recommend_recalculate",
    "Implicit.C69_recommend_index",
    "Implicit.C69_recommend_wrapped",
    "Implicit.C69_similar_items",
    "Implicit.C69_similar_items_index",
    "Implicit.C69_fit",
    "Implicit.C69_fit_callback",
    "Implicit.C69_save_load",
    "Implicit.C69_similar_users",
    "Implicit.C69_rank_items",
    "Implicit.C69_rank_items_recommend",
    "Implicit.C69_fit_keyword_violated",
    "Implicit.C69_file_keyword_violated",
    "Implicit.C69_similar_users_violated",
    "Implicit.C69_approximate_save_violated",
    "Implicit.C69_rank_items_violated",
    "Implicit.C69_faiss_violated",
    "Implicit.C69_recalculate_violated"
   ],
   "note": "All calls, all classes. Holds with the exceptions proved as violations: parameter names of fit, save and load differ between classes, similar_users is missing on item-item and approximate models, approximate models cannot be saved and refuse rank_items and recalculate_user, and a Faiss model without a recommendation index cannot recommend."
  },
  {
   "property": "C70",
   "status": "partial",
   "theorems": [
    "Implicit.C70_train_evaluate",
    "Implicit.C70_split_evaluate",
    "Implicit.C70_nothing_held_out_violated",
    "Implicit.C70_all_items_violated"
   ],
   "note": "Proved when no user rated every item and at least one rating is held out, with exact arithmetic. Otherwise the run ends in a ZeroDivisionError: if nothing is held out, or if an evaluated user holds out every item."
  },
  {
   "property": "C71",
   "status": "partial",
   "theorems": [
    "Implicit.C71_recommend_scores",
    "Implicit.C71_similar_scores",
    "Implicit.C71_similar_recalculated_scores",
    "Implicit.C71_recommend_ids",
    "Implicit.C71_items_ids",
    "Implicit.C71_similar_ids",
    "Implicit.C71_item_item",
    "Implicit.C71_item_item_similar",
    "Implicit.C71_filter_order",
    "Implicit.C71_similar_filter_order",
    "Implicit.C71_items_order",
    "Implicit.C71_all_items",
    "Implicit.C71_complement",
    "Implicit.C71_gpu_partial",
    "Implicit.C71_ties_violated",
    "Implicit.C71_similar_items_order_violated",
    "Implicit.C71_recommend_kept",
    "Implicit.C71_similar_kept",
    "Implicit.C71_item_item_kept"
   ],
   "note": "Scores always; every result of the shorter list is in the longer one, ties or not (C71_recommend_kept, C71_similar_kept, C71_item_item_kept); its position only without ties (C71_ties_violated: with equal scores the list for N is not the beginning of the list for N+1). In similar_items the order of items decides between ties (C71_similar_items_order_violated). On the GPU shown for recommend with an array filter and enough eligible items (C71_gpu_partial)."
  },
  {
   "property": "C72",
   "status": "partial",
   "theorems": [
    "Implicit.C72_item_item",
    "Implicit.C72_item_item_rest",
    "Implicit.C72_item_item_finish",
    "Implicit.C72_one_thread",
    "Implicit.C72_locked",
    "Implicit.C72_locked_finish",
    "Implicit.C72_gpu_locked",
    "Implicit.C72_answers",
    "Implicit.C72_queries",
    "Implicit.C72_finish",
    "Implicit.C72_gpu_norms_violated",
    "Implicit.C72_gpu_gram_violated",
    "Implicit.C72_gpu_memory_violated",
    "Implicit.C72_gpu_warm",
    "Implicit.C72_gpu_memory",
    "Implicit.C72_stale_gram_violated",
    "Implicit.C72_cleared_gram_violated",
    "Implicit.C72_lost_update_violated",
    "Implicit.C72_lost_user_violated",
    "Implicit.C72_old_norms_violated",
    "Implicit.C72_zero_norm_violated",
    "Implicit.C72_one_writer"
   ],
   "note": "Item-item models: proved in full for all schedules (answers, state of the scorer, no deadlock, fair schedules finish). Factor models on the CPU: every query that reads nothing any thread updates answers as if alone (norms cached or no zero factor), no call waits, one writer of one side leaves the right factors. Violated for concurrent updates (lost users), queries next to updates of what they read (stale Gram matrix kept for ever, TypeError, old norms), the first similar_items of two threads (zero norm, NaN), and on the GPU (host norms missing, Gram matrix of zeros, memory pool). With one lock of the application around every call, all calls - any updates, first calls, both CPU and GPU - return what they return in some order without threads, and fair schedules finish; one thread alone behaves as the sequential model (C10)."
  },
  {
   "property": "C73",
   "status": "partial",
   "theorems": [
    "Implicit.C73_least_squares",
    "Implicit.C73_sections",
    "Implicit.C73_all_pairs",
    "Implicit.C73_malloc_violated",
    "Implicit.C73_new_violated",
    "Implicit.C73_scorer_partial",
    "Implicit.C73_gpu_partial",
    "Implicit.C73_bpr_update_violated",
    "Implicit.C73_constructor_violated",
    "Implicit.C73_destructor_violated",
    "Implicit.C73_matrix_memory_partial",
    "Implicit.C73_foreign_violated",
    "Implicit.C73_resize_race_violated",
    "Implicit.C73_resize_leak_violated"
   ],
   "note": "Parallel sections: for all threads, schedules, failing rows and exceptions everything is freed, and (if no allocation fails) nothing invalid is used and the exception arrives. Missing: malloc results are not tested, new is not declared except + (process ends), bpr_update and three constructors leak when a later CUDA call fails, destructors throw, a wrapped foreign array is not kept alive, resize frees a buffer in use by another thread or leaks when its copy fails - each with a violated witness; the GPU theorems assume away exactly these."
  },
  {
   "property": "C74",
   "status": "partial",
   "theorems": [
    "Implicit.C74_history_partial",
    "Implicit.C74_call_partial",
    "Implicit.C74_partial_fit_users",
    "Implicit.C74_partial_fit_items",
    "Implicit.C74_integer_ids_users",
    "Implicit.C74_integer_ids_items",
    "Implicit.C74_grown_violated",
    "Implicit.C74_grown_answers_violated",
    "Implicit.C74_lmf_violated",
    "Implicit.C74_fit_violated",
    "Implicit.C74_ann_partial",
    "Implicit.C74_faiss_partial",
    "Implicit.C74_gpu_partial",
    "Implicit.C74_gpu_half_violated",
    "Implicit.C74_item_item_answers",
    "Implicit.C74_item_item_call_partial",
    "Implicit.C74_item_item_partial",
    "Implicit.C74_item_item_fit_violated"
   ],
   "note": "Proved for all histories, any selection of forgotten calls and any state of the caches (C74_history_partial, C74_call_partial; GPU: C74_gpu_partial), for partial_fit_* with ids that are all nonnegative or all negative and for models whose fit drops its caches. What a raising partial_fit_* can do for arbitrary ids is stated exactly (C74_partial_fit_users, C74_partial_fit_items), and a returning one updates the rows named, negative ids counting from the end of the extended table (C74_integer_ids_users, C74_integer_ids_items). Item-item models: any call but a fit that returns can be forgotten (C74_item_item_partial, C74_item_item_call_partial); approximate models: C74_ann_partial, C74_faiss_partial (without similar_items for a single item). Violated by partial_fit_* with a new id and an id out of bounds from the end (C74_grown_violated for all models, C74_grown_answers_violated as seen by the caller), by a raising query before a refit of logistic matrix factorisation (C74_lmf_violated), by fit itself (C74_fit_violated) by half precision GPU models (C74_gpu_half_violated) and by an item-item fit with 2^31 or more slots (C74_item_item_fit_violated)."
  },
  {
   "property": "C75",
   "status": "partial",
   "theorems": [
    "Implicit.C75_cholesky_violated",
    "Implicit.C75_cg_violated",
    "Implicit.C75_cholesky_users",
    "Implicit.C75_gpu_violated",
    "Implicit.C75_gpu_fit_violated",
    "Implicit.C75_bpr_violated",
    "Implicit.C75_lmf_violated",
    "Implicit.C75_python_cg_violated",
    "Implicit.C75_python_solve_violated",
    "Implicit.C75_gpu_bpr_violated",
    "Implicit.C75_alive",
    "Implicit.C75_zero_violated",
    "Implicit.C75_empty_violated"
   ],
   "note": "Proved: exact ALS (Cholesky, positive regularisation) ends with zero factors exactly if no row of the data pulled on the initial item factors, so training that has learnt something never loses it (C75_alive); with the Cholesky solver the user factors left behind do not matter (C75_cholesky_users). Violated: after a ModelFitError caused by NaN every later CPU fit fails again (ALS with both native solvers and both python solvers, BPR for every schedule of threads, LMF), because the factors are kept; on the GPU one NaN turns all user factors of ALS into zero without an error, and a NaN factor of BPR stays NaN for ever, also without an error; after a fit on an empty matrix all factors are zero and stay zero. Missing: infinities are not told apart from other values."
  },
  {
   "property": "C76",
   "status": "partial",
   "theorems": [
    "Implicit.C76_load",
    "Implicit.C76_shadowed_method_violated",
    "Implicit.C76_item_item_file_violated",
    "Implicit.C76_other_class",
    "Implicit.C76_load_fresh",
    "Implicit.C76_planted_cache_violated",
    "Implicit.C76_native_rows",
    "Implicit.C76_shape_refused",
    "Implicit.C76_one_column_violated",
    "Implicit.C76_one_factor_violated",
    "Implicit.C76_fortran_in_bounds",
    "Implicit.C76_fortran_violated",
    "Implicit.C76_similarity",
    "Implicit.C76_arrays_refused",
    "Implicit.C76_similarity_safe",
    "Implicit.C76_crafted_similarity_violated",
    "Implicit.C76_unknown_item_violated"
   ],
   "note": "Proved: load succeeds exactly if no member is pickled, none has the name of a read-only property and dtype names a data type, and then exactly the named attributes are set (C76_load); any CPU factorisation class loads the files of any other with the same factors (C76_other_class); an archive with the members that save writes answers every sequence of queries from the factors (C76_load_fresh); in C order with cols = factors the native loop over memory computes the rows (C76_native_rows), other numbers of columns are refused unless one of the two is 1 (C76_shape_refused); item-item arrays of a square matrix give the answers of the fitted model (C76_similarity), arrays that scipy refuses never reach the scorer (C76_arrays_refused), and arbitrary arrays are used safely exactly if every liked item has a readable row of existing items (C76_similarity_safe). Violated: methods shadowed by members, files of item-item models accepted by factorisation classes, planted caches, one column / one factor, Fortran order, crafted similarity indices, liked items beyond the similarity matrix. The CG solver at array level is C80. Missing: array-level models of the other classes."
  },
  {
   "property": "C77",
   "status": "partial",
   "theorems": [
    "Implicit.C77_first",
    "Implicit.C77_once",
    "Implicit.C77_warned_partial",
    "Implicit.C77_later_violated",
    "Implicit.C77_strict"
   ],
   "note": "One warning per threaded BLAS library with the first model (C77_first), none afterwards (C77_once), no model and no announcement while the warning is an exception (C77_strict). Announced before training only if libraries and threads never change after the first model (C77_warned_partial); otherwise violated: nothing is checked again."
  },
  {
   "property": "C78",
   "status": "partial",
   "theorems": [
    "Implicit.C78_als_partial",
    "Implicit.C78_items_violated",
    "Implicit.C78_python_cg_violated",
    "Implicit.C78_gpu_als_partial",
    "Implicit.C78_bpr",
    "Implicit.C78_gpu_bpr",
    "Implicit.C78_lmf",
    "Implicit.C78_knn_users",
    "Implicit.C78_knn_items",
    "Implicit.C78_cosine_items",
    "Implicit.C78_tfidf_items_violated",
    "Implicit.C78_bm25_items_violated"
   ],
   "note": "ALS (CPU and GPU): users with any start, items that start at zero; BPR (CPU and GPU): users, LMF: users and items; item-item: users for all models, items for given weights and for cosine. Violated: ALS items with a random start take part in the first pass (C78_items_violated), users under the python conjugate gradient solver (C78_python_cg_violated), TF-IDF and BM25 weights contain the number of items (C78_tfidf_items_violated, C78_bm25_items_violated)."
  },
  {
   "property": "C79",
   "status": "partial",
   "theorems": [
    "Implicit.C79_als",
    "Implicit.C79_recalculate",
    "Implicit.C79_loss",
    "Implicit.C79_explain",
    "Implicit.C79_recommend",
    "Implicit.C79_filter",
    "Implicit.C79_metrics",
    "Implicit.C79_bpr",
    "Implicit.C79_lmf",
    "Implicit.C79_als_zero_violated",
    "Implicit.C79_als_parts_violated",
    "Implicit.C79_zero_violated",
    "Implicit.C79_check_csr",
    "Implicit.C79_formats",
    "Implicit.C79_weighted",
    "Implicit.C79_knn",
    "Implicit.C79_knn_ties_violated",
    "Implicit.C79_cosine_parts_violated"
   ],
   "note": "Formats and the order of entries: proved for ALS (CPU, GPU), recalculation, loss, explain, recommend, BPR, LMF, metrics and the weighted item-item models; the unweighted item-item model has the same similarities and, without ties, the same rows (row 0 only without ties). Violated: stored zeros and numbers in parts change ALS, stored zeros change filtering, metrics, BPR and LMF, parts change the cosine model, and ties at the cut-off of the unweighted item-item model depend on the order."
  },
  {
   "property": "C80",
   "status": "partial",
   "theorems": [
    "Implicit.C80_cg",
    "Implicit.C80_least_squares",
    "Implicit.C80_loss",
    "Implicit.C80_cg_c_order",
    "Implicit.C80_least_squares_c_order",
    "Implicit.C80_schedule",
    "Implicit.C80_fortran_violated",
    "Implicit.C80_fortran_users_violated"
   ],
   "note": "For factor arrays whose rows are contiguous (C order, padded rows, slices of columns) the three loops never fail on memory, refine the row models for every division of the rows among threads and every content of the scratch buffers, and leave all other cells alone. Violated for factor arrays in Fortran order: the solver takes N neighbours in memory for a row (C80_fortran_violated), and rows of user factors overlap so that the result depends on the schedule (C80_fortran_users_violated)."
  },
  {
   "property": "C81",
   "status": "partial",
   "theorems": [
    "Implicit.C81_bpr",
    "Implicit.C81_bpr_fortran_violated",
    "Implicit.C81_bpr_fortran_users_violated",
    "Implicit.C81_bpr_columns_violated",
    "Implicit.C81_lmf",
    "Implicit.C81_lmf_columns_violated"
   ],
   "note": "LMF is correct for every layout; BPR only for rows stored contiguously (row pointers ignore the column stride) and both need equal numbers of columns; three violations with witnesses for BPR, one for LMF"
  },
  {
   "property": "C82",
   "status": "partial",
   "theorems": [
    "Implicit.C82_als",
    "Implicit.C82_recommend_exact",
    "Implicit.C82_recommend_scores",
    "Implicit.C82_fit_exact",
    "Implicit.C82_bpr",
    "Implicit.C82_lmf_partial",
    "Implicit.C82_lmf_violated",
    "Implicit.C82_knn_fit",
    "Implicit.C82_weights",
    "Implicit.C82_knn_recommend",
    "Implicit.C82_knn_violated",
    "Implicit.C82_evaluate",
    "Implicit.C82_evaluate_violated",
    "Implicit.C82_gpu_fit",
    "Implicit.C82_gpu_move",
    "Implicit.C82_half_violated",
    "Implicit.C82_mixed_violated"
   ],
   "note": "ALS and BPR on the CPU in full, for every history; exact conditions for recommend, native training, item-item models, evaluation and the GPU. Violated: LMF ignores dtype, item-item models (integers in recommend, plain fit only float64, 64 bit indices, batch scores float32), evaluation of item-item models on counts, float16 models after to_cpu, factors of two types"
  },
  {
   "property": "C83",
   "status": "partial",
   "theorems": [
    "Implicit.C83_symmetric",
    "Implicit.C83_fit_partial",
    "Implicit.C83_recommend",
    "Implicit.C83_counts_partial",
    "Implicit.C83_cosine_partial",
    "Implicit.C83_cosine_double",
    "Implicit.C83_self_violated",
    "Implicit.C83_single_partial",
    "Implicit.C83_single_error"
   ],
   "note": "Error bounds for similarities, cosines and scores for every rounding, symmetry to the last bit, exactness on whole numbers below 2^53. Partial: row 0 as in C23; overflow not treated (TF-IDF and BM25 are C99); self similarity need not be the greatest (violated). Overflow is C103. C83_single_partial: cosine similarities of ratings in single precision, whose squares are rounded to single precision; C83_single_error: off by less than 0.000001 for up to a million ratings per item."
  },
  {
   "property": "C84",
   "status": "partial",
   "theorems": [
    "Implicit.C84_range",
    "Implicit.C84_perfect",
    "Implicit.C84_error",
    "Implicit.C84_discounts",
    "Implicit.C84_double",
    "Implicit.C84_ndcg_violated"
   ],
   "note": "Range, errors and perfect models proved for all inputs; NDCG can exceed 1 in double precision (C84_ndcg_violated), so 'within [0,1]' fails for NDCG."
  },
  {
   "property": "C85",
   "status": "partial",
   "theorems": [
    "Implicit.C85_more_confidence",
    "Implicit.C85_dislike",
    "Implicit.C85_like",
    "Implicit.C85_change_of_mind",
    "Implicit.C85_others",
    "Implicit.C85_influence",
    "Implicit.C85_bounds",
    "Implicit.C85_regularisation",
    "Implicit.C85_training",
    "Implicit.C85_direct",
    "Implicit.C85_direct_scores",
    "Implicit.C85_recommend",
    "Implicit.C85_partial_fit",
    "Implicit.C85_items",
    "Implicit.C85_weak_like_violated",
    "Implicit.C85_above_one_violated",
    "Implicit.C85_rank_violated"
   ],
   "note": "Proved for every change of one entry, with the exact size of the effect on all items (C85_others). Liking raises the score if the weight (alpha times value) is at least 1 and the score is not above 1; both conditions are needed (C85_weak_like_violated, C85_above_one_violated), and ranks are not covered by the claim and can fall (C85_rank_violated). Training with conjugate gradients: total bound only."
  },
  {
   "property": "C86",
   "status": "partial",
   "theorems": [
    "Implicit.C86_unregularised",
    "Implicit.C86_wrong_order",
    "Implicit.C86_bystanders",
    "Implicit.C86_mean",
    "Implicit.C86_climbs",
    "Implicit.C86_right_order_violated",
    "Implicit.C86_large_rate_violated",
    "Implicit.C86_lmf_step_size",
    "Implicit.C86_lmf",
    "Implicit.C86_lmf_overshoot_violated"
   ],
   "note": "Unregularised samples always raise their pair (lr <= sqrt 2); regularised ones whenever the pair is in the wrong order; effect on bystanders; the mean over the draws is the gradient of the popularity-weighted ranking objective; LMF steps are bounded by the learning rate and do not lower the likelihood after enough history. Violated: a pair in the right order can be reversed by the regularisation in its own sample; learning rates above sqrt 2 can drive a pair apart; LMF with the default rate 1 overshoots with an empty history."
  },
  {
   "property": "C87",
   "status": "proved",
   "theorems": [
    "Implicit.C87_better",
    "Implicit.C87_discount",
    "Implicit.C87_promote",
    "Implicit.C87_replace"
   ],
   "note": "Metrics are monotone, and strictly so, under better beginnings of the lists; lists of K different existing items."
  },
  {
   "property": "C88",
   "status": "proved",
   "theorems": [
    "Implicit.C88_leave_k_out",
    "Implicit.C88_each_rating",
    "Implicit.C88_all_draws",
    "Implicit.C88_train_test",
    "Implicit.C88_train_share"
   ],
   "note": "Uniform and independent held-out sets by a bijection of draws without tied keys, a bound over all draws, and the exact distribution of train_test_split."
  },
  {
   "property": "C89",
   "status": "partial",
   "theorems": [
    "Implicit.C89_rating",
    "Implicit.C89_scale",
    "Implicit.C89_more_neighbours",
    "Implicit.C89_more_neighbours_scores",
    "Implicit.C89_new_user_partial",
    "Implicit.C89_cosine_partial",
    "Implicit.C89_cosine_bound",
    "Implicit.C89_cosine_violated"
   ],
   "note": "Item 0's own row of a fitted similarity matrix is excluded for the new-user theorem (C89_new_user_partial, C89_cosine_partial: row 0 carries spurious entries, see C23). The cosine part needs 0/1 data: with other ratings a user who rates both items can lower their cosine (C89_cosine_violated). TF-IDF and BM25 weights are not covered."
  },
  {
   "property": "C90",
   "status": "proved",
   "theorems": [
    "Implicit.C90_solved",
    "Implicit.C90_residual",
    "Implicit.C90_factor",
    "Implicit.C90_loss",
    "Implicit.C90_recommend",
    "Implicit.C90_total",
    "Implicit.C90_python_solved",
    "Implicit.C90_python_residual",
    "Implicit.C90_python_factor",
    "Implicit.C90_python_loss",
    "Implicit.C90_python_users",
    "Implicit.C90_users",
    "Implicit.C90_items",
    "Implicit.C90_iteration"
   ],
   "note": "Direct solvers, native and python (recalculate_*, partial_fit_*, fit with use_cg=False); conjugate gradients are C91. LAPACK enters by its backward stability contract (StableSolver, StableElimination), no overflow or underflow."
  },
  {
   "property": "C91",
   "status": "proved",
   "theorems": [
    "Implicit.C91_returns",
    "Implicit.C91_more_rounds",
    "Implicit.C91_residual",
    "Implicit.C91_stops",
    "Implicit.C91_factor",
    "Implicit.C91_loss",
    "Implicit.C91_converged",
    "Implicit.C91_block_dot",
    "Implicit.C91_kernel_factor",
    "Implicit.C91_kernel_loss",
    "Implicit.C91_gpu_users",
    "Implicit.C91_gpu_residual",
    "Implicit.C91_gpu_stops",
    "Implicit.C91_gpu_factor",
    "Implicit.C91_gpu_loss",
    "Implicit.C91_gpu_recalculate",
    "Implicit.C91_python_residual",
    "Implicit.C91_python_stops",
    "Implicit.C91_python_factor",
    "Implicit.C91_python_loss",
    "Implicit.C91_users"
   ],
   "note": "No overflow or underflow; BLAS enters by the error of a sum in any order (BlasProducts.Accurate). The bound needs a bound on the factors after every round; that the residual decreases is not shown."
  },
  {
   "property": "C92",
   "status": "partial",
   "theorems": [
    "Implicit.C92_loss",
    "Implicit.C92_dense",
    "Implicit.C92_threads",
    "Implicit.C92_gpu_loss",
    "Implicit.C92_gpu_dense",
    "Implicit.C92_gpu_order",
    "Implicit.C92_negative_violated"
   ],
   "note": "Proved: the reported loss (CPU and GPU) is the dense loss up to an explicit error for every schedule of threads or blocks, and two runs agree up to twice that. Violated: a reported loss can be negative (one user, one item, confidence 3145728)."
  },
  {
   "property": "C93",
   "status": "partial",
   "theorems": [
    "Implicit.C93_no_nan",
    "Implicit.C93_power_below",
    "Implicit.C93_max_norm",
    "Implicit.C93_lengths",
    "Implicit.C93_scores",
    "Implicit.C93_annoy",
    "Implicit.C93_nmslib",
    "Implicit.C93_orthogonal_violated"
   ],
   "note": "Partial because of a violation: with Annoy's single precision distances an orthogonal item gets a positive score. Everything else is proved for all inputs: no NaN under monotone rounding (and what happens if the scalar power is below the rounded square), lengths of the rows, recommendations of Annoy and NMSLib up to an explicit error. The index contract is a hypothesis."
  },
  {
   "property": "C94",
   "status": "proved",
   "theorems": [
    "Implicit.C94_exact",
    "Implicit.C94_lmf",
    "Implicit.C94_float"
   ],
   "note": "Exact numbers: movement at most the learning rate per epoch. Floating point with overflow: completion without error and explicit bounds, for general sizes (C94_lmf) and for float32 with the default number of epochs (C94_float)."
  },
  {
   "property": "C95",
   "status": "partial",
   "theorems": [
    "Implicit.C95_order",
    "Implicit.C95_artists",
    "Implicit.C95_movies",
    "Implicit.C95_neighbours",
    "Implicit.C95_recommendations",
    "Implicit.C95_positive",
    "Implicit.C95_padding_violated",
    "Implicit.C95_recommendations_violated",
    "Implicit.C95_titles_violated"
   ],
   "note": "Proved: order, batches, sections for matrix factorization models with at least 11 items, exact contents for item-item models and for recommendations, min_rating. Violated: item-item models pad with id -1, which the program writes as the last artist with the lowest score; users with fewer than ten unheard artists get heard ones, and artist 0 with score 0 when there are fewer than ten artists; movielens.py raises IndexError when the titles go on after the last rated movie."
  },
  {
   "property": "C96",
   "status": "proved",
   "theorems": [
    "Implicit.C96_energy",
    "Implicit.C96_fit",
    "Implicit.C96_defaults",
    "Implicit.C96_needed"
   ],
   "note": "exact arithmetic, one thread (as the claim says); floating point and several threads are not covered"
  },
  {
   "property": "C97",
   "status": "proved",
   "theorems": [
    "Implicit.C97_fit",
    "Implicit.C97_float"
   ],
   "note": "Rounded and overflowing arithmetic, one CPU thread, verify_negative_samples=True. Rounding is any monotone function with the given error bounds that is exact on halves (IEEE single and double precision are instances); exp is a parameter. FMA contraction and the drawing of initial factors are not modelled."
  },
  {
   "property": "C98",
   "status": "proved",
   "theorems": [
    "Implicit.C98_explain",
    "Implicit.C98_weights",
    "Implicit.C98_all_listed",
    "Implicit.C98_recommend"
   ],
   "note": "explain with rounding: error of total and contributions, top-N, reuse of weights, distance from recommend"
  },
  {
   "property": "C99",
   "status": "partial",
   "theorems": [
    "Implicit.C99_tfidf_weights",
    "Implicit.C99_bm25_weights",
    "Implicit.C99_double",
    "Implicit.C99_cancellation_violated",
    "Implicit.C99_tfidf_partial",
    "Implicit.C99_bm25_partial"
   ],
   "note": "Weights within an explicit factor, similarities of both recommenders within an explicit error, double precision bound. Partial: row 0 as in C23; no overflow or underflow; fails for users with n - 1 of n items (violated)."
  },
  {
   "property": "C100",
   "status": "partial",
   "theorems": [
    "Implicit.C100_score",
    "Implicit.C100_recommend",
    "Implicit.C100_entries",
    "Implicit.C100_similar",
    "Implicit.C100_float32",
    "Implicit.C100_bpr",
    "Implicit.C100_nan_violated",
    "Implicit.C100_filtered_violated",
    "Implicit.C100_infinite_violated",
    "Implicit.C100_order_violated",
    "Implicit.C100_similar_violated",
    "Implicit.C100_lmf",
    "Implicit.C100_infinities"
   ],
   "note": "Proved for recommend with every rounding and order of summation, for similar_items without underflow (as in C62), and for trained BPR and LMF models. Beyond the range: C100_nan_violated, C100_filtered_violated, C100_infinite_violated, C100_order_violated, C100_similar_violated. Missing: underflow in similar_items."
  },
  {
   "property": "C101",
   "status": "partial",
   "theorems": [
    "Implicit.C101_als",
    "Implicit.C101_bpr",
    "Implicit.C101_uniform",
    "Implicit.C101_gpu_als",
    "Implicit.C101_bpr_once",
    "Implicit.C101_bpr_recommend",
    "Implicit.C101_uniform_violated",
    "Implicit.C101_values",
    "Implicit.C101_uniform_error"
   ],
   "note": "Proved for the initial factors of ALS and BPR on CPU and GPU (ranges, and values up to rounding: C101_values, C101_uniform_error) and for BPR from the draws to recommend. Partial because RandomState.uniform of the GPU leaves ranges that are not symmetric (C101_uniform_violated); the models only use symmetric ones."
  },
  {
   "property": "C102",
   "status": "partial",
   "theorems": [
    "Implicit.C102_row",
    "Implicit.C102_sweep",
    "Implicit.C102_fit",
    "Implicit.C102_double",
    "Implicit.C102_recommend",
    "Implicit.C102_overflow_violated"
   ],
   "note": "Proved for the direct solver from the initial factors to recommend, on data in the stated range and with the stated assumption on LAPACK's posv. Partial because results below the smallest normal number are not modelled here (eta = 0), conjugate gradients are missing, and because finite factors of size 2^64 overflow the Gram matrix (C102_overflow_violated). C102_double: the default regularization, double precision, up to 8000 users and items and 200 factors."
  },
  {
   "property": "C103",
   "status": "partial",
   "theorems": [
    "Implicit.C103_fit_partial",
    "Implicit.C103_recommend",
    "Implicit.C103_bm25_partial",
    "Implicit.C103_bm25_recommend",
    "Implicit.C103_bm25_violated",
    "Implicit.C103_zero_violated",
    "Implicit.C103_cosine_partial",
    "Implicit.C103_cosine_recommend",
    "Implicit.C103_double",
    "Implicit.C103_overflow_violated",
    "Implicit.C103_cosine_violated",
    "Implicit.C103_single_partial",
    "Implicit.C103_single_recommend",
    "Implicit.C103_single_violated",
    "Implicit.C103_tfidf_partial",
    "Implicit.C103_tfidf_recommend"
   ],
   "note": "C103_fit_partial: similarities in range are finite and the K best up to rounding (row 0 except the padding entry, as in C83). C103_recommend: scores of recommend in range. C103_double: up to 10^9 users and values up to 10^50 in double precision, from fit to recommend. C103_cosine_partial: CosineRecommender, from the ratings to the similarities; C103_cosine_recommend: to the recommendations. C103_single_partial and C103_single_recommend: the same for ratings in single precision up to 10^18. C103_tfidf_partial and C103_tfidf_recommend: TFIDFRecommender, with ratings in single or double precision. C103_bm25_partial: BM25Recommender, from the ratings to the similarities; C103_bm25_recommend: to the recommendations. Violated beyond the range: C103_overflow_violated (infinite similarities), C103_cosine_violated and C103_single_violated (weight 0 instead of 1), C103_bm25_violated (NaN weights when the sum of the ratings of an item overflows, even for B = 0), C103_zero_violated (NaN for an item whose only stored values are 0)."
  }
 ]
}