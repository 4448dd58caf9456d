{"id": "C01", "title": "Top-k selection returns the k best scores, sorted, without repeats", "statement": "For one row of scores and a requested count k >= 1, native top-k selection returns exactly min(k, number of scores) pairs (id, score); the ids are distinct valid positions, every score is the score at its id, no omitted position has a score larger than a returned one, and the pairs are ordered by decreasing score with ties by decreasing id.", "quantifier": "for every score row (any length, any ties, any order of arrival) and every k >= 1, and for every correct heap implementation", "why_tests_cant": "The set of kept candidates depends on the arrival order and tie pattern through a mutable heap; tests only try a few random rows without ties, and the guarantee is about all of them.", "anchors": ["implicit/cpu/select.h: select", "implicit/nearest_neighbours.h: TopK::operator()"]}
{"id": "C02", "title": "Factor-model recommend returns the N items with the largest predicted score", "statement": "recommend(userid, user_items, N) with no filters returns N distinct item ids, each accompanied by the inner product of the user factor and that item factor, in non-increasing score order, such that no item left out has a larger inner product than an item returned; if fewer than N items exist only existing items are returned, each once.", "quantifier": "for every factor matrices, every user, every N >= 1 (including N larger than the catalogue)", "why_tests_cant": "Random-factor tests with N smaller than the catalogue never reach the boundary N > catalogue or tie patterns.", "anchors": ["implicit/cpu/matrix_factorization_base.py: MatrixFactorizationBase.recommend", "implicit/cpu/topk.pyx: topk, _topk_batch", "implicit/cpu/select.h: select"]}
{"id": "C03", "title": "A batch query answers every row as if asked alone, whatever the batching, thread count or schedule", "statement": "Calling recommend/similar_users/similar_items with an array of ids gives, at each position, the same ids and scores as the single query for that id; the internal split in blocks of 100 rows, the number of threads and the order or interleaving in which blocks run cannot change the answer.", "quantifier": "for every batch length (including multiples of the block size and zero), every number of threads, every completion order of blocks and every interleaving of their writes", "why_tests_cant": "Tests run one schedule on one machine with a small batch; schedules and block-boundary sizes are unbounded.", "anchors": ["implicit/cpu/topk.pyx: topk, _topk_batch", "implicit/cpu/matrix_factorization_base.py: recommend, similar_users, similar_items"]}
{"id": "C04", "title": "Filtered items are not recommended", "statement": "With filter_already_liked_items=True (or filter_items=F) no item the user already liked (or in F) appears among the returned ids, and the remaining answer is the ranking of the unfiltered items.", "quantifier": "for every factor matrices, every set of liked/filtered items, every N", "why_tests_cant": "The guarantee fails only when N exceeds the number of remaining items or the catalogue, a boundary which the shipped tests compare only through specific small matrices.", "anchors": ["implicit/cpu/matrix_factorization_base.py: recommend", "implicit/cpu/topk.pyx: _topk_batch", "implicit/cpu/select.h: select"]}
{"id": "C05", "title": "Restricting to items=S ranks exactly S, and filters still apply after renumbering", "statement": "recommend(..., items=S) returns only ids from S, at most min(N,|S|) of them, distinct, each with its own predicted score, best first, and a liked item in S is still pushed out by filter_already_liked_items exactly as without items=.", "quantifier": "for every duplicate-free or duplicated list S in any order, every liked set (including explicitly stored zeros), every N", "why_tests_cant": "The id renumbering (sort, binary search, clip, zero-out, re-index) has off-by-one hazards at both ends and with repeated ids; only all-inputs reasoning covers them.", "anchors": ["implicit/cpu/matrix_factorization_base.py: recommend, _filter_items_from_sparse_matrix"]}
{"id": "C06", "title": "Invalid query arguments raise and never produce an answer", "statement": "recommend raises ValueError when both items and filter_items are given or when user_items does not have one row per requested user (when it is used), and IndexError when items contains an id outside the catalogue; when none of these holds the call returns a result.", "quantifier": "for every combination of arguments", "why_tests_cant": "Branch interactions (order of checks, negative ids wrapping around in array indexing, truthiness of array arguments) are combinatorial.", "anchors": ["implicit/cpu/matrix_factorization_base.py: recommend", "implicit/utils.py: check_csr"]}
{"id": "C07", "title": "Similarity scores are cosines and an item is maximally similar to itself", "statement": "similar_items(i)/similar_users(u) scores are the cosine of the angle between the factors: they lie in [-1,1], the queried entity itself has score exactly 1 whenever its factor is non-zero, no other entity scores higher, and entities with zero factor score 0.", "quantifier": "for every factor matrix (any rank, zero rows, parallel rows) and every id, in exact arithmetic", "why_tests_cant": "An inequality over all real vectors (Cauchy-Schwarz); sampling cannot establish it.", "anchors": ["implicit/cpu/matrix_factorization_base.py: similar_items, similar_users, _get_similarity_score, item_norms, user_norms"]}
{"id": "C08", "title": "similar_items/similar_users with items= or filter_items= return only eligible ids", "statement": "With items=S only members of S are returned, each at most once with its own similarity; with filter_items=F no member of F is returned; at most N results.", "quantifier": "for every S, F, N and every factor matrix", "why_tests_cant": "The boundary N > |S| is never exercised in the shipped tests.", "anchors": ["implicit/cpu/matrix_factorization_base.py: similar_items, similar_users, _get_similarity_score"]}
{"id": "C09", "title": "Queries do not modify the model", "statement": "recommend, similar_items, similar_users (and their approximate variants) leave the learned factors unchanged, so any sequence of queries in any order gives each query the answer it would have had on the freshly trained model.", "quantifier": "for every history of queries of any length, on every model", "why_tests_cant": "Aliasing of array views lets a query mutate the model only in particular call orders; histories are unbounded.", "anchors": ["implicit/cpu/matrix_factorization_base.py: recommend, similar_items, similar_users", "implicit/ann/faiss.py: FaissModel.similar_items", "implicit/ann/annoy.py", "implicit/ann/nmslib.py"]}
{"id": "C10", "title": "Cached norms and Gram matrices always match the current factors", "statement": "After any sequence of fit, partial_fit_users, partial_fit_items and queries, the norms used by similar_items/similar_users and the Gram matrix used when recalculating are those of the current factors.", "quantifier": "for every finite history of public operations, including queries made from a fit callback", "why_tests_cant": "Stale-cache bugs depend on the interleaving of training and queries; histories are unbounded.", "anchors": ["implicit/cpu/als.py: fit, partial_fit_users, partial_fit_items, YtY, XtX", "implicit/cpu/bpr.pyx: fit", "implicit/cpu/lmf.pyx: fit", "implicit/cpu/matrix_factorization_base.py: item_norms, user_norms"]}
{"id": "C11", "title": "Each ALS update is the unique optimum of the weighted regularised problem", "statement": "Given item factors Y, the vector computed for a user with confidences c solves the normal equations and is the unique minimiser over all vectors x of sum over ALL items of c_i (p_i - x.y_i)^2 + regularization*|x|^2, where unstored items have confidence 1 and preference 0, stored positive values preference 1, and negative values confidence |c| with preference 0.", "quantifier": "for every item factor matrix, every sparse confidence row (positive, negative, zero values), every regularization > 0, every dimension, in exact arithmetic", "why_tests_cant": "Optimality is a statement about all competing vectors; the shortcut of updating a shared Gram matrix must equal the dense sum for every sparsity pattern.", "anchors": ["implicit/cpu/als.py: user_linear_equation, user_factor, least_squares", "implicit/cpu/_als.pyx: _least_squares"]}
{"id": "C12", "title": "The reported training loss is the dense weighted loss", "statement": "calculate_training_loss reports (sum over all user-item cells of c_ui (p_ui - x_u.y_i)^2 + regularization (|X|^2+|Y|^2)) / sum of all confidences.", "quantifier": "for every sparse matrix (with negative entries, empty rows), every factor matrices and regularization, in exact arithmetic", "why_tests_cant": "The sparse formula must equal the dense double sum for every sparsity pattern; tests only compare on one tiny example.", "anchors": ["implicit/cpu/_als.pyx: _calculate_loss"]}
{"id": "C13", "title": "ALS training never increases the objective", "statement": "Each half-iteration of fit (users then items) with the direct solver does not increase the regularised weighted objective, hence the loss sequence seen by callbacks is non-increasing over any number of iterations.", "quantifier": "for every data matrix, every starting factors, every number of iterations, in exact arithmetic with regularization > 0", "why_tests_cant": "Monotonicity over unbounded iteration counts is an induction, not a sample.", "anchors": ["implicit/cpu/als.py: fit, least_squares", "implicit/cpu/_als.pyx: _least_squares"]}
{"id": "C14", "title": "The conjugate-gradient solver never makes a factor worse and converges to the exact solution", "statement": "Starting from the previous factor, any number of CG steps never increases the user's objective; the tracked residual is the true residual; when the direction is non-zero each step strictly improves; and after as many steps as there are factors (no early stop) the result is the exact solution.", "quantifier": "for every positive definite system produced by the model, every start vector and every step count, in exact arithmetic", "why_tests_cant": "A convergence guarantee over all systems and iteration counts.", "anchors": ["implicit/cpu/_als.pyx: _least_squares_cg", "implicit/cpu/als.py: least_squares_cg", "implicit/gpu/als.cu: least_squares_cg_kernel"]}
{"id": "C15", "title": "Parallel native loops are deterministic", "statement": "The parallel solvers (ALS rows, nearest-neighbour rows, top-k blocks) produce the result of the sequential loop: every task writes only its own output rows and reads nothing another task writes.", "quantifier": "for every number of threads, every assignment of rows to threads and every interleaving of elementary steps", "why_tests_cant": "The number of interleavings is unbounded; a race may never manifest in tests.", "anchors": ["implicit/cpu/_als.pyx: _least_squares, _least_squares_cg", "implicit/_nearest_neighbours.pyx: all_pairs_knn", "implicit/cpu/topk.pyx: topk"]}
{"id": "C16", "title": "Users or items without interactions get zero factors from ALS", "statement": "After an ALS sweep every row with no stored entries has the all-zero factor (hence score 0 for everything), whatever its previous value, and the other rows are not affected by it.", "quantifier": "for every sparsity pattern and previous factors; for each of the solver variants (direct/CG, native/python)", "why_tests_cant": "The native code has a special case and the python code relies on algebra; agreement must hold for every system.", "anchors": ["implicit/cpu/_als.pyx: _least_squares, _least_squares_cg", "implicit/cpu/als.py: least_squares, least_squares_cg"]}
{"id": "C17", "title": "Recalculating a user or item depends only on its own row and gives the training solution", "statement": "recalculate_user (recommend with recalculate_user=True) gives the factor the direct solver would give that row during training with the current item factors, independent of the stored user factor, of the user id, and of the other rows in the batch; a user_items with the wrong number of rows raises.", "quantifier": "for every model state, every user_items rows, every batch", "why_tests_cant": "Independence from everything else is a non-interference statement over pairs of states.", "anchors": ["implicit/cpu/als.py: recalculate_user, recalculate_item, _user_factor, _item_factor"]}
{"id": "C18", "title": "partial_fit touches exactly the named rows", "statement": "partial_fit_users(ids, rows) sets the factor of each named user to its recalculated factor, leaves every other existing user and all items unchanged, extends the table with zero rows up to the largest id, and repeating the call changes nothing; likewise partial_fit_items.", "quantifier": "for every model state, every list of ids (beyond the current size, unordered), every rows, and any history of such calls", "why_tests_cant": "Frame conditions over all untouched rows and all histories.", "anchors": ["implicit/cpu/als.py: partial_fit_users, partial_fit_items"]}
{"id": "C19", "title": "explain decomposes the predicted score", "statement": "explain(userid, user_items, itemid, N) returns a total equal to the score recommend(recalculate_user=True) gives the item, equal to the sum of contributions over all the user's positively rated items; the listed contributions are the N largest, in decreasing order, and with N at least the number of positive items they sum to the total.", "quantifier": "for every model, user row (including negative confidences), item and N, in exact arithmetic", "why_tests_cant": "An algebraic identity involving an inverse matrix and a heap; cannot be established by samples.", "anchors": ["implicit/cpu/als.py: explain"]}
{"id": "C20", "title": "alpha is exactly a rescaling of the confidences", "statement": "Training (and recalculating, and explaining) with parameter alpha on data C gives the same model as alpha=1 on alpha*C, on CPU and GPU alike.", "quantifier": "for every data, alpha and number of iterations", "why_tests_cant": "Relates two whole training runs.", "anchors": ["implicit/cpu/als.py: fit, recalculate_user, explain", "implicit/gpu/als.py: fit, recalculate_user"]}
{"id": "C21", "title": "A training run that returns has no NaN factors", "statement": "If fit returns normally, neither factor matrix contains NaN; if NaN arises a ModelFitError is raised.", "quantifier": "for every data and every solver behaviour, including solvers that produce NaN anywhere in the matrix", "why_tests_cant": "Requires reasoning about arbitrary (faulty) numerical results.", "anchors": ["implicit/cpu/matrix_factorization_base.py: _check_fit_errors", "implicit/cpu/als.py: fit", "implicit/gpu/als.py: fit"]}
{"id": "C22", "title": "The sparse row accumulator is exact and leaves no residue", "statement": "Accumulating any sequence of (index, value) additions and then enumerating visits every index that received an addition exactly once with the exact sum of its values, and nothing else; afterwards the accumulator is back in its initial state so that the next row is unaffected.", "quantifier": "for every sequence of additions (repeats, zeros, cancelling values), every size and any number of rounds", "why_tests_cant": "State leakage between rows depends on history; the linked-list threading must be right for every order of first touches.", "anchors": ["implicit/nearest_neighbours.h: SparseMatrixMultiplier"]}
{"id": "C23", "title": "all_pairs_knn keeps for every item its K most similar items with exact scores", "statement": "Row i of the similarity matrix contains the K largest entries of row i of (items x users)*(users x items) among items sharing at least one user with i, with exact values, and nothing else; the result does not depend on thread scheduling.", "quantifier": "for every sparse matrix, every K >= 1, every schedule", "why_tests_cant": "Combines hash-free accumulation, bounded heaps and COO padding; only small fixed matrices are tested.", "anchors": ["implicit/_nearest_neighbours.pyx: all_pairs_knn", "implicit/nearest_neighbours.h: SparseMatrixMultiplier, TopK"]}
{"id": "C24", "title": "Native nearest-neighbour output buffers are never overrun", "statement": "all_pairs_knn writes every result slot inside the allocated arrays, for every catalogue size and K, and distinct items write disjoint slots.", "quantifier": "for every number of items and K, with machine-integer (32-bit) index arithmetic", "why_tests_cant": "Needs catalogues with more than 2^31/K items; impossible to run in a unit test.", "anchors": ["implicit/_nearest_neighbours.pyx: all_pairs_knn"]}
{"id": "C25", "title": "Item-item scores are the weighted sum of similarities, independent of earlier calls", "statement": "The score of a recommended item is the sum over the user's rated items of rating times similarity; the N highest are returned in decreasing order; the answer does not depend on earlier or concurrent queries.", "quantifier": "for every similarity matrix, user row, N, and every history of previous calls", "why_tests_cant": "Shared mutable accumulators make answers potentially history dependent.", "anchors": ["implicit/_nearest_neighbours.pyx: NearestNeighboursScorer.recommend", "implicit/nearest_neighbours.py: ItemItemRecommender.recommend"]}
{"id": "C26", "title": "Item-item recommend does not return items the user already rated", "statement": "With filter_already_liked_items=True the item-item models return no item of the user's row.", "quantifier": "for every similarity matrix, user row and N", "why_tests_cant": "Depends on whether enough other items have positive scores.", "anchors": ["implicit/_nearest_neighbours.pyx: NearestNeighboursScorer.recommend", "implicit/nearest_neighbours.py: ItemItemRecommender.recommend"]}
{"id": "C27", "title": "Item-item filter_items removes the items and still gives at most N results", "statement": "recommend(..., N, filter_items=F) returns at most N results, none in F, and exactly the N best of the remaining candidates when that many exist; the same for a batch.", "quantifier": "for every similarity matrix, user row, N, F", "why_tests_cant": "The over-fetch-then-filter argument is a pigeonhole argument over all F and rankings.", "anchors": ["implicit/nearest_neighbours.py: ItemItemRecommender.recommend"]}
{"id": "C28", "title": "Item-item recommend with items=S ranks all of S", "statement": "recommend(..., items=S) returns precisely the members of S, those with a score first in decreasing order, followed by those without score at the lowest value; ids out of range raise IndexError and items combined with filter_items raises ValueError.", "quantifier": "for every S, similarity matrix, user row", "why_tests_cant": "Set equality for all S and all rankings.", "anchors": ["implicit/nearest_neighbours.py: ItemItemRecommender.recommend, rank_items"]}
{"id": "C29", "title": "Cosine/TF-IDF/BM25 weighting", "statement": "normalize gives every row with a non-zero entry unit length (hence Cosine and TF-IDF similarities lie in [-1,1], with self-similarity 1) and none of the weightings changes which cells are stored; BM25 and TF-IDF give strictly positive weight to positive entries of users that have not rated every item, and are increasing in the raw count.", "quantifier": "for every sparse matrix with the stated positivity, in exact real arithmetic; for matrices of integers with the squares as numpy computes them in the type of the matrix", "why_tests_cant": "Inequalities over all real data.", "anchors": ["implicit/nearest_neighbours.py: normalize, tfidf_weight, bm25_weight, CosineRecommender.fit, TFIDFRecommender.fit, BM25Recommender.fit"]}
{"id": "C30", "title": "train_test_split partitions the ratings", "statement": "train and test have the input's shape, every stored rating goes to exactly one of the two with its value, and train + test = ratings.", "quantifier": "for every sparse matrix and every outcome of the random draws", "why_tests_cant": "All random outcomes and sign patterns.", "anchors": ["implicit/evaluation.pyx: train_test_split"]}
{"id": "C31", "title": "leave_k_out_split holds out exactly K ratings per eligible user", "statement": "For every user with more than K+1 ratings (not chosen train-only) exactly K of their ratings go to test with their values; all other ratings go to train; no rating is in both and train + test = ratings; ineligible users appear only in train.", "quantifier": "for every sparse matrix (including users with no or few ratings), every K, every outcome of sorting and shuffling", "why_tests_cant": "Index arithmetic over grouped arrays breaks only when eligible user ids have gaps.", "anchors": ["implicit/evaluation.pyx: leave_k_out_split, _take_tails, _choose"]}
{"id": "C32", "title": "Splits are reproducible from random_state", "statement": "Two calls of train_test_split or leave_k_out_split with equal ratings, parameters and integer random_state return equal splits.", "quantifier": "for every input and every state of any other random generator in the process", "why_tests_cant": "Relates two runs in different process states.", "anchors": ["implicit/evaluation.pyx: train_test_split, leave_k_out_split, _take_tails", "implicit/utils.py: check_random_state"]}
{"id": "C33", "title": "Ranking metrics lie in [0,1]", "statement": "precision_at_k, mean_average_precision_at_k, ndcg_at_k and AUC_at_k return values in [0,1].", "quantifier": "for every model, train/test matrices and K for which they are defined", "why_tests_cant": "Bounds for every ranking.", "anchors": ["implicit/evaluation.pyx: ranking_metrics_at_k"]}
{"id": "C34", "title": "Ranking metrics mean what they say", "statement": "For each user the code's AUC is the fraction of (relevant, irrelevant) pairs ordered correctly with unranked pairs counted one half; average precision and NDCG follow their textbook definitions; a ranking with all relevant items first scores 1 in each; results do not depend on the batching of users.", "quantifier": "for every ranking, relevant set, K, every number of users and batch size", "why_tests_cant": "Closed formulas accumulated in a loop must equal pair counts for every ranking.", "anchors": ["implicit/evaluation.pyx: ranking_metrics_at_k, precision_at_k, mean_average_precision_at_k, ndcg_at_k, AUC_at_k"]}
{"id": "C35", "title": "BPR never trains against an item the user liked", "statement": "With verify_negative_samples=True no update is applied with a negative item stored in the user's row; the positive item is always from the user's row.", "quantifier": "for every sequence of random draws, every thread interleaving, every matrix (given in any column order)", "why_tests_cant": "Random draws and races.", "anchors": ["implicit/cpu/bpr.pyx: has_non_zero, bpr_update, fit", "implicit/gpu/bpr.cu: bpr_update_kernel"]}
{"id": "C36", "title": "BPR keeps cold rows and bias conventions intact", "statement": "After BPR training users and items with no interactions have zero factors, and every user's last factor is exactly 1 so that the last item factor acts as item bias. A refit starts from the factors the model has and leaves those rows and columns as they were.", "quantifier": "for every sequence of draws, number of samples/epochs, interleaving; on CPU and GPU", "why_tests_cant": "An invariant over unbounded random histories.", "anchors": ["implicit/cpu/bpr.pyx: fit, bpr_update", "implicit/gpu/bpr.cu: bpr_update_kernel", "implicit/gpu/bpr.py: fit"]}
{"id": "C37", "title": "BPR and LMF updates are gradient ascent steps of the documented objectives", "statement": "Each BPR update moves the three touched rows by learning_rate times the gradient of log sigmoid(x_ui - x_uj) - regularization/2*|theta|^2 (simultaneously evaluated); the sigmoid forms used are equal and in (0,1); LMF accumulates the gradient of its log-likelihood.", "quantifier": "for every factor values, in exact real arithmetic; on the GPU for every interleaving of the threads of the block", "why_tests_cant": "A derivative identity over all reals.", "anchors": ["implicit/cpu/bpr.pyx: bpr_update", "implicit/cpu/lmf.pyx: lmf_update, sigmoid", "implicit/gpu/bpr.cu: bpr_update_kernel"]}
{"id": "C38", "title": "LMF bias columns and negative sampling", "statement": "After LMF training every user's second-last factor and every item's last factor is 1 (bias convention), rows without interactions have otherwise zero factors and are never moved by updates, and each row gets neg_prop negative samples per seen entry limited only by the catalogue size.", "quantifier": "for every data, number of iterations, every random stream, every schedule", "why_tests_cant": "An invariant over unbounded random histories.", "anchors": ["implicit/cpu/lmf.pyx: fit, lmf_update"]}
{"id": "C39", "title": "Saving then loading restores the model", "statement": "Model.load(path) after model.save(path) gives a model equal in factors and all hyper-parameters, for every path with or without the .npz suffix.", "quantifier": "for every model state and path", "why_tests_cant": "Quantifies over all hyper-parameter values (None, 0-d arrays, dtype) and subclasses.", "anchors": ["implicit/recommender_base.py: load", "implicit/cpu/als.py: save", "implicit/cpu/bpr.pyx: save", "implicit/cpu/lmf.pyx: save", "implicit/nearest_neighbours.py: save, load"]}
{"id": "C40", "title": "Moving a model between CPU and GPU preserves it", "statement": "to_gpu().to_cpu() preserves the factors and hyper-parameters.", "quantifier": "for every model state", "why_tests_cant": "All hyper-parameters values.", "anchors": ["implicit/cpu/als.py: to_gpu", "implicit/gpu/als.py: to_cpu", "implicit/cpu/bpr.pyx: to_gpu", "implicit/gpu/bpr.py: to_cpu"]}
{"id": "C41", "title": "Inner-product search reduces to angular search", "statement": "The augmentation used by the approximate models gives all items equal norm, and ranking items by angular similarity with the zero-extended query equals ranking by inner product; the scores reported after rescaling are exactly the inner products.", "quantifier": "for every factor matrix and every query, in exact real arithmetic", "why_tests_cant": "Equality of two orderings for all real matrices.", "anchors": ["implicit/utils.py: augment_inner_product_matrix", "implicit/ann/annoy.py: recommend", "implicit/ann/nmslib.py: recommend"]}
{"id": "C42", "title": "Approximate models honour filters and N for every index answer", "statement": "Whatever the index returns, no filtered or liked item is in the answer and at most N items are returned; with an exact index the answer is exactly the N best unfiltered items when that many exist.", "quantifier": "for every index behaviour, filter, N", "why_tests_cant": "The index is arbitrary; over-fetching must be sufficient for every filter/ranking combination.", "anchors": ["implicit/utils.py: _filter_items_from_results", "implicit/ann/annoy.py", "implicit/ann/nmslib.py", "implicit/ann/faiss.py"]}
{"id": "C43", "title": "Batch adaptation is row-aligned with explicit padding", "statement": "For models that answer one id at a time, the batch result has exactly N columns; row i holds the first N results of the single query for ids[i] (with row i of user_items), followed by id -1 with the lowest score.", "quantifier": "for every number of ids, N, and single-query result lengths (shorter, equal, longer)", "why_tests_cant": "All length combinations.", "anchors": ["implicit/utils.py: _batch_call"]}
{"id": "C44", "title": "A crash during dataset download is never mistaken for a complete dataset", "statement": "If a get_* dataset function returns from its cache, the cached file is a completely downloaded file.", "quantifier": "for every crash point of every earlier download attempt", "why_tests_cant": "Crash points cannot be enumerated in unit tests.", "anchors": ["implicit/datasets/_download.py: download_file", "implicit/datasets/movielens.py: get_movielens"]}
{"id": "C45", "title": "GPU top-k returns row-aligned results for every batch", "statement": "The GPU top-k processes every query row exactly once and stores the results for query row r in output row r, whatever the memory-driven batch size and for every k.", "quantifier": "for every number of queries, items, k and available memory", "why_tests_cant": "Requires GPU memory sizes and k beyond catalogue size.", "anchors": ["implicit/gpu/knn.cu: KnnQuery::topk_impl"]}
{"id": "C46", "title": "GPU matrices keep their contents when grown, sliced or assigned", "statement": "Growing a device matrix preserves existing rows and zero-fills the new ones; row and slice views contain the selected rows; out-of-range accesses raise; assigning rows touches only the named rows.", "quantifier": "for every matrix, index, slice, any history", "why_tests_cant": "No GPU in CI; all indices.", "anchors": ["implicit/gpu/matrix.cu: Matrix::resize, Matrix::assign_rows, Matrix::Matrix", "implicit/gpu/_cuda.pyx: Matrix.__getitem__"]}
{"id": "C47", "title": "recommend_all gives each user the answer recommend gives", "statement": "Row u of recommend_all(user_items) equals recommend for user u (shifted by users_items_offset) with the same filters.", "quantifier": "for every model, offset, filter settings", "why_tests_cant": "All offsets.", "anchors": ["implicit/cpu/matrix_factorization_base.py: recommend_all"]}
{"id": "C48", "title": "Documented random_state values are honoured", "statement": "fit accepts None, an int, a numpy RandomState or Generator; equal integer seeds give equal initial state, on CPU and GPU.", "quantifier": "for every seed value of every documented kind", "why_tests_cant": "Includes seed 0 and legacy generator objects.", "anchors": ["implicit/utils.py: check_random_state", "implicit/gpu/matrix_factorization_base.py: check_random_state"]}
{"id": "C49", "title": "Native kernels only touch memory inside the given arrays", "statement": "For every fit/recalculate call that the python layer lets through, the native solver loops read and write only indices inside the sparse matrix arrays and factor matrices.", "quantifier": "for every matrix shapes and every previous model state (including refitting on a different shape)", "why_tests_cant": "Out-of-bounds access in compiled code without bounds checks is undefined behaviour that tests may not notice.", "anchors": ["implicit/cpu/_als.pyx: _least_squares", "implicit/cpu/als.py: fit, recalculate_user, recalculate_item", "implicit/gpu/als.cu: LeastSquaresSolver::least_squares"]}
{"id": "C50", "title": "Training metrics counters are consistent", "statement": "The BPR progress counters satisfy 0 <= correct, 0 <= skipped, correct + skipped <= number of samples, so that the reported percentages are in [0,100] and never divide by zero.", "quantifier": "for every sequence of draws", "why_tests_cant": "All random sequences.", "anchors": ["implicit/cpu/bpr.pyx: fit, bpr_update"]}
{"id": "C51", "title": "Item-item similar_items ranks the stored neighbours", "statement": "similar_items of an item-item model returns the N best stored neighbours of the item (restricted by filter_items or items, requested items without similarity at the lowest value); after fit with K >= N these are the N items with the greatest inner product among those with a user in common; a batch gives the padded single answers; recalculate_item and items combined with filter_items raise.", "quantifier": "for every similarity matrix, item, N, filter, item selection, and every order numpy gives to equal scores", "why_tests_cant": "Quantifies over all matrices and all tie orders.", "anchors": ["implicit/nearest_neighbours.py: ItemItemRecommender.similar_items"]}
{"id": "C52", "title": "GPU thread blocks compute dot products correctly", "statement": "The GPU solver, loss, norm and BPR kernels work with true dot products of factor rows: whatever the number of factors (up to 1024) and however the warps of a block are scheduled, each cooperative dot product hands every thread the sum over all factors, also when a kernel computes many of them one after the other.", "quantifier": "for every number of factors, every pair of vectors, every sequence of dot products and every interleaving of the warps that respects the barriers", "why_tests_cant": "The scheduling of warps and the content of absent lanes are not under a test's control; races show up rarely or only on other hardware.", "anchors": ["implicit/gpu/dot.cuh: dot, warp_reduce_sum", "implicit/gpu/als.cu: least_squares_cg_kernel, calculate_loss_kernel", "implicit/gpu/bpr.cu: bpr_update_kernel", "implicit/gpu/matrix.cu: calculate_norms_kernel"]}
{"id": "C53", "title": "GPU models answer queries like CPU models", "statement": "recommend, similar_items and similar_users of a GPU factor model accept the same arguments as the CPU model and return, for one id or a batch, the same scores in the same order (the same ids when no two candidates tie): the N best candidates that are not liked, not filtered and, when items is given, in items; with recalculate the ranking is that of the recalculated factors.", "quantifier": "all factors and norms, all users, interaction rows, filters, item restrictions and N, every selection primitive, batch size and stale device memory", "why_tests_cant": "the answer depends on ties, batch boundaries, stale memory and argument combinations; GPU tests run on one small matrix with default arguments", "anchors": ["implicit/gpu/matrix_factorization_base.py:34-101", "implicit/gpu/matrix_factorization_base.py:125-208", "implicit/gpu/_cuda.pyx:55-83", "implicit/gpu/_cuda.pyx:126-160"]}
{"id": "C54", "title": "GPU training computes what CPU training computes", "statement": "Fitting the GPU ALS model from given initial factors ends with the factors that CPU ALS (native conjugate gradient solver, same regularization, cg_steps and iterations, alpha 1) ends with, however the thread blocks are scheduled; so the training objective never increases, the reported training loss is the CPU's, and recalculate_user/recalculate_item return rows that solve the row's problem up to the tolerance.", "quantifier": "all interaction matrices and initial factors of matching shape, all numbers of factors, grid sizes, interleavings of the thread blocks, orders of atomic additions and previous contents of scratch memory", "why_tests_cant": "block schedules and the order of atomic additions are chosen by the hardware; comparing a few trained models up to a tolerance neither covers them nor tells rounding from a wrong index", "anchors": ["implicit/gpu/als.cu:23-111", "implicit/gpu/als.cu:113-197", "implicit/gpu/als.cu:199-281", "implicit/gpu/als.py:142-204"]}
{"id": "C55", "title": "GPU models: queries change no factors and caches always match the current factors", "statement": "On a GPU ALS or BPR model, recommend, similar_items, similar_users, recalculate_user and recalculate_item never change user_factors or item_factors; and after any sequence of fit, partial_fit_users, partial_fit_items, queries, pickling and to_cpu().to_gpu(), whether the calls return or raise, every query answers exactly as a model that has the same factors and nothing cached.", "quantifier": "all factors, all histories of any length with any arguments (including failing calls), both model classes, all queries", "why_tests_cant": "six cached values are filled and dropped by different methods; a stale one shows only after particular sequences of calls, of which there are infinitely many", "anchors": ["implicit/gpu/matrix_factorization_base.py:25-32", "implicit/gpu/matrix_factorization_base.py:105-117", "implicit/gpu/matrix_factorization_base.py:217-231", "implicit/gpu/als.py:140-143", "implicit/gpu/als.py:206-295", "implicit/gpu/bpr.py:124"]}
{"id": "C56", "title": "GPU partial_fit changes exactly the named rows", "statement": "partial_fit_users(ids, user_items) on the GPU ALS model stores for every named user the vector that recalculate_user returns for the same interactions, adds zero rows for ids beyond the table, and leaves all other users and all items unchanged, in whatever order the device writes the elements; if it raises, no factor has changed. The same holds for partial_fit_items with the sides exchanged.", "quantifier": "all models, lists of ids (known, new, repeated, negative), interaction rows, orders of the device writes, and histories of calls", "why_tests_cant": "the order of device writes is up to the hardware and the interesting cases (repeated ids, half precision, empty rows) are combinations tests do not enumerate", "anchors": ["implicit/gpu/als.py:206-275", "implicit/gpu/matrix.cu:98-144", "implicit/gpu/_cuda.pyx:162-170"]}
{"id": "C57", "title": "Factory functions build the model the caller asked for", "statement": "implicit.als.AlternatingLeastSquares, implicit.bpr.BayesianPersonalizedRanking and implicit.lmf.LogisticMatrixFactorization, called with any mixture of positional and keyword arguments that fits their documented parameter list, return an object of the class selected by use_gpu in which every documented hyper-parameter has the value given or else its documented default; a truthy use_gpu raises ValueError without CUDA, and NotImplementedError for LMF; every call that does not fit raises TypeError. The Annoy, NMSLib and Faiss variants pass every ALS parameter on to the wrapped model and every own parameter to the wrapper.", "quantifier": "for every list of positional arguments, every list of keyword arguments and every value of each, on machines with and without CUDA", "why_tests_cant": "The parameters combine freely; a dropped, swapped or defaulted parameter shows only in calls that set it (in that position), on the one backend concerned.", "anchors": ["implicit/als.py: AlternatingLeastSquares", "implicit/bpr.py: BayesianPersonalizedRanking", "implicit/lmf.py: LogisticMatrixFactorization", "implicit/approximate_als.py: NMSLibAlternatingLeastSquares, AnnoyAlternatingLeastSquares, FaissAlternatingLeastSquares", "implicit/cpu/als.py, implicit/gpu/als.py, implicit/cpu/bpr.pyx, implicit/gpu/bpr.py, implicit/cpu/lmf.pyx, implicit/ann/*.py: __init__"]}
{"id": "C58", "title": "A generated dataset file holds the raw data", "statement": "For the lastfm, movielens, reddit, sketchfab and million song datasets: writing a file with generate_dataset from raw records and reading it with the matching get_ function returns a matrix with one row per item and one column per user (by sorted name, or by numeric id for movielens), whose entry for an item and a user is the sum of the records of that pair and is absent without a record; the returned names label exactly those rows and columns; the file read is the file asked for.", "quantifier": "for every list of records (any order, repetitions, any identifiers), every song summary and every list of titles", "why_tests_cant": "The project has no tests of the generators; the interesting tables (identifiers that look like missing values, repeated pairs, tracks without summary, gaps in the ids) are unbounded.", "anchors": ["implicit/datasets/lastfm.py: get_lastfm, generate_dataset", "implicit/datasets/movielens.py: get_movielens, generate_dataset", "implicit/datasets/reddit.py: get_reddit, generate_dataset", "implicit/datasets/sketchfab.py: get_sketchfab, generate_dataset", "implicit/datasets/million_song_dataset.py: get_msd_taste_profile, generate_dataset"]}
{"id": "C59", "title": "Approximate models answer from the present factors of the wrapped model", "statement": "After a successful fit of the Annoy, NMSLib or Faiss model, recommend and similar_items return, whenever the library's search is exact, the best items that are not filtered with their inner products (for similar_items: cosines), according to the factors the wrapped model holds at that moment. This stays true through any further sequence of fits, queries and uses of the wrapped model; a model that was never fitted raises; a fit that raises changes no index.", "quantifier": "for every inner model, every sequence of operations, every set of factors (zero vectors included), every N and filter list, and every library that returns exact neighbours", "why_tests_cant": "Tests fit once and query; stale indexes need a particular sequence of operations, and the label bookkeeping of omitted or scaled vectors shows only for particular factors.", "anchors": ["implicit/ann/annoy.py: AnnoyModel.fit, recommend, similar_items", "implicit/ann/nmslib.py: NMSLibModel.fit, recommend, similar_items", "implicit/ann/faiss.py: FaissModel.fit, recommend, similar_items", "implicit/utils.py: augment_inner_product_matrix"]}
{"id": "C60", "title": "Calls leave the caller's matrices and arrays alone", "statement": "Training (ALS, BPR, LMF, also BPR on the GPU), recalculating factors, recommend with a list or array of items, train_test_split and the weighting functions do not change the objects passed to them or any other object the caller holds, although they sort, zero and scale in place. They work on data with the same cells, and what they return shares no array with the arguments, so that later changes to a result cannot reach the caller's data.", "quantifier": "for every memory of arrays and matrices (with any sharing), every CSR, CSC or COO argument of any precision, every alpha, every item selection and every random state", "why_tests_cant": "Tests look at the returned values. Whether an operation in place hits a copy depends on format, precision, sortedness and sharing of the argument, and the damage shows in another object.", "anchors": ["implicit/cpu/bpr.pyx: BayesianPersonalizedRanking.fit", "implicit/gpu/bpr.py: BayesianPersonalizedRanking.fit", "implicit/cpu/lmf.pyx: LogisticMatrixFactorization.fit", "implicit/cpu/als.py: AlternatingLeastSquares.fit, recalculate_user, recalculate_item", "implicit/cpu/matrix_factorization_base.py: recommend, _filter_items_from_sparse_matrix", "implicit/evaluation.pyx: train_test_split", "implicit/nearest_neighbours.py: tfidf_weight, normalize, bm25_weight"]}
{"id": "C61", "title": "Machine integers address the intended positions", "statement": "Every position computed in C integers inside a call (score reads and result writes of the CPU top-k, result slots of all_pairs_knn, normal-matrix columns of ALS, negative sample counts of LMF, factor rows in the GPU kernels, rows and samples shared out by grid-stride loops, result offsets and filter positions of the GPU top-k) equals the mathematical position, with no signed overflow: no user, item or result is written to the place of another.", "quantifier": "for all numbers of users, items, results, factors, samples, blocks and batches whose counts fit their C types", "why_tests_cant": "The first wrong position appears for millions of users and items, far beyond test data; whether an expression is evaluated in 32 or 64 bits depends on implicit conversions that leave no trace on small inputs.", "anchors": ["implicit/cpu/select.h: select", "implicit/cpu/topk.pyx: topk, _topk_batch", "implicit/_nearest_neighbours.pyx: all_pairs_knn", "implicit/cpu/_als.pyx: _least_squares", "implicit/cpu/lmf.pyx: lmf_update", "implicit/gpu/als.cu: least_squares_cg_kernel, calculate_loss_kernel", "implicit/gpu/bpr.cu: bpr_update_kernel", "implicit/gpu/matrix.cu: calculate_norms_kernel", "implicit/gpu/knn.cu: KnnQuery::topk_impl"]}
{"id": "C62", "title": "In floating point, recommendations and similarities are right up to a stated error", "statement": "recommend and similar_items compute in floating point, in an order of summation chosen by BLAS. Each returned score is within a stated bound of the exact score (for cosine similarities without underflow a bound that depends on precision and number of factors only: below 0.00003 for 128 factors in float32), the ids are distinct and unfiltered, and an item is never ranked before, or returned instead of, another whose exact score is better by more than the two bounds. If the exact scores are further apart than the bounds, the ids are those of exact arithmetic.", "quantifier": "for every rounding function with a relative and an absolute error, every summation tree with or without fused multiply-add, every number of factors and items, every filter that leaves k items, every k", "why_tests_cant": "Tests compare with a tolerance on data of one size with one BLAS. A bound for all orders of summation needs a proof by induction over the summation tree.", "anchors": ["implicit/cpu/topk.pyx: topk", "implicit/cpu/matrix_factorization_base.py: recommend, similar_items, _get_similarity_score, user_norms, item_norms"]}
{"id": "C63", "title": "A call on the GPU does its work or raises", "statement": "fit, recalculate_user, calculate_loss and norms of the GPU models and an epoch of GPU BPR either return what their kernels compute, or raise. No call returns normally with the kernel not having run, and the kernels stay within the shared memory they are given.", "quantifier": "for every number of factors, every device limit on threads per kernel and shared memory, all data and factors of matching shapes, every number of iterations", "why_tests_cant": "Tests use up to 128 factors; whether a launch is accepted depends on the device, and a rejected launch leaves arrays of the right shape and type with no error.", "anchors": ["implicit/gpu/als.cu: calculate_yty, least_squares, calculate_loss", "implicit/gpu/matrix.cu: Matrix::calculate_norms", "implicit/gpu/bpr.cu: bpr_update", "implicit/gpu/utils.h: CHECK_CUDA", "implicit/gpu/dot.cuh: dot", "implicit/gpu/als.py: AlternatingLeastSquares.fit, recalculate_user"]}
{"id": "C64", "title": "ALS training settles", "statement": "However many iterations fit is asked for: the factors stay bounded by the starting objective over the regularization; with the direct solvers the squared movements of all iterations together are at most the decrease of the objective over the regularization, and an iteration changes nothing exactly when the gradient of the objective is zero; with all solvers the number of iterations in which some row has a gradient of squared length eps or more is bounded independently of the number of iterations, so that from some iteration on all gradients stay below eps (down to the tolerance for conjugate gradients).", "quantifier": "for every matrix with positive, negative or absent values, any starting factors, any number of factors and iterations, any regularization > 0, each of the four solvers (conjugate gradients with at least one step), every eps > 0", "why_tests_cant": "Tests train a few iterations on one small matrix and look at the result. A bound on all iterations of all runs, and that no run keeps wandering, cannot be observed.", "anchors": ["implicit/cpu/als.py: AlternatingLeastSquares.fit, solver, least_squares, least_squares_cg", "implicit/cpu/_als.pyx: _least_squares, _least_squares_cg"]}
{"id": "C65", "title": "Training samples are drawn with the intended probabilities", "statement": "Given uniform and independent words from the generator, BPR training picks every stored interaction as positive with exactly the same probability and item j as negative with a probability proportional to its number of interactions; samples whose negative the user has interacted with are dropped and the others keep their proportions; an item without interactions is never a negative. LMF picks its negatives by popularity in the same way, and never an item of the user itself. The GPU trainer draws with the same probabilities as the CPU.", "quantifier": "for every matrix with 1 to 2^32 stored entries, any number of rejected words, verify_negative_samples on or off", "why_tests_cant": "A test can only look at frequencies of a finite sample, which cannot tell exactly uniform from nearly uniform, nor that rejection never biases a position.", "anchors": ["implicit/cpu/bpr.pyx: RNGVector, bpr_update", "implicit/cpu/lmf.pyx: RNGVector, lmf_update", "implicit/gpu/bpr.cu: bpr_update_kernel"]}
{"id": "C66", "title": "Callbacks watch the training, and training can be stopped and resumed", "statement": "A callback passed to fit is called once after every iteration, in order, with the iteration number, a non-negative time and (ALS) the training loss; it finds the model that a fit with that many iterations would give, and if it only looks the result of fit is the same as without it. An exception it raises ends fit at once, with the model of the iterations completed so far, and fitting again for the remaining iterations gives what an uninterrupted fit gives. The same callback can be used with every model, and changes it makes to the model are those the next iteration starts from.", "quantifier": "for every number of iterations, every callback (any state change, any exception at any iteration), every clock, every matrix", "why_tests_cant": "Callbacks are arbitrary code that can act at any iteration; tests try a few harmless ones with a few iterations.", "anchors": ["implicit/cpu/als.py: fit", "implicit/gpu/als.py: fit", "implicit/cpu/bpr.pyx: fit", "implicit/gpu/bpr.py: fit", "implicit/cpu/lmf.pyx: fit"]}
{"id": "C67", "title": "Numbers of users and items, and the basis of the factors, do not matter", "statement": "Giving users and items other numbers (in the matrix, in the initial factors and in the calls) gives the same factors under the new numbers after fit, and the same recommendations and similar items with the same scores. For item-item models (plain, cosine, TF-IDF, BM25) the neighbours of every item, their similarities and the recommendations are the renamed ones. For BPR and LMF, which train on randomly drawn stored entries, every training run corresponds to a run on the renamed matrix that draws the renamed entries and computes the renamed factors. Expressing the initial factors in another orthonormal basis gives the factors in that basis after fit, and recommend, similar_items, similar_users and the training loss answer exactly the same.", "quantifier": "for every permutation of users and items, every orthonormal basis, every matrix (rows in any stored order), all four CPU solvers and the GPU solver, BPR with every interleaving of its threads and LMF, every number of iterations and every call", "why_tests_cant": "There are factorially many numberings and infinitely many bases; tests train on one numbering and compare no two runs.", "anchors": ["implicit/cpu/als.py: AlternatingLeastSquares.fit", "implicit/cpu/_als.pyx: _least_squares, _least_squares_cg, _calculate_loss", "implicit/gpu/als.cu: least_squares_cg_kernel", "implicit/cpu/matrix_factorization_base.py: recommend, similar_items, similar_users", "implicit/cpu/bpr.pyx: BayesianPersonalizedRanking.fit, bpr_update", "implicit/cpu/lmf.pyx: LogisticMatrixFactorization.fit, lmf_update", "implicit/nearest_neighbours.py: ItemItemRecommender.fit, recommend, CosineRecommender.fit, TFIDFRecommender.fit, BM25Recommender.fit"]}
{"id": "C68", "title": "Users with the same history are treated alike", "statement": "Two users whose rows store the same interactions (in any order) get the same factors from fit, and two queries with the same interactions get the same recommendations; likewise two items with the same users get the same factors. It does not matter which numbers they have or what random factors they started from.", "quantifier": "for every matrix, every pair of rows with the same entries, every initial factors, every number of iterations, every solver and every query of a batch", "why_tests_cant": "Tests train on random data, in which two users with equal histories rarely occur, and the small differences left by an unfinished solver look like noise.", "anchors": ["implicit/cpu/als.py: AlternatingLeastSquares.fit, recalculate_user", "implicit/cpu/_als.pyx: _least_squares, _least_squares_cg", "implicit/gpu/als.py: recalculate_user", "implicit/nearest_neighbours.py: ItemItemRecommender.recommend"]}
{"id": "C69", "title": "Code written for RecommenderBase works with every model", "statement": "A call that fits a method's signature in RecommenderBase is accepted by every model class and reaches it with the same values: recommend and similar_items on all models when neither recalculation nor a candidate list is asked for, fit with a positional matrix and no callback on all models, save and load on all models that are not approximate. A call that does not fit is a TypeError on every class.", "quantifier": "for every model class, every approximate wrapper with every setting of its switches and every wrapped model, every method, and every combination of positional and keyword arguments", "why_tests_cant": "The test-suite calls each class with its own argument names; it does not try all combinations of positional and keyword arguments on all classes.", "anchors": ["implicit/recommender_base.py: RecommenderBase", "implicit/nearest_neighbours.py: ItemItemRecommender.fit, similar_users, similar_items, CosineRecommender.fit", "implicit/ann/annoy.py: AnnoyModel", "implicit/ann/nmslib.py: NMSLibModel", "implicit/ann/faiss.py: FaissModel", "implicit/gpu/matrix_factorization_base.py: load, save, recalculate_user"]}
{"id": "C70", "title": "Split, train and evaluate gives honest metrics", "statement": "train_test_split on positive ratings, AlternatingLeastSquares.fit on the training part and ranking_metrics_at_k on the two parts ends with metrics between 0 and 1. They are the textbook metrics of the lists returned by recommend; these lists put the best items without a training rating first; and every item counted as relevant was rated by the user and was not used in training.", "quantifier": "for every rating matrix with positive ratings in which no user rated every item, every draw of the generator that holds out at least one rating, every starting point, every solver, any number of iterations and dimensions, positive regularisation and every K between 1 and the number of items", "why_tests_cant": "tests/evaluation_test.py runs one random split and compares the metrics functions among each other; it neither ranges over the draws nor checks that what is counted was held out.", "anchors": ["implicit/evaluation.pyx: train_test_split, ranking_metrics_at_k", "implicit/cpu/als.py: AlternatingLeastSquares.fit", "implicit/cpu/matrix_factorization_base.py: recommend", "tests/evaluation_test.py"]}
{"id": "C71", "title": "Asking for more results, or in another order, does not change the ranking", "statement": "If recommend, similar_items or similar_users succeeds for N' results, it succeeds for every smaller N and each row has the first N scores of the longer row; the ids are the first N too when no two scores tie. The order and the repetitions of filter_items and, in recommend, the order of items have no effect. items with every id gives the same answer as no restriction, and items with the complement of filter_items the same scores as filter_items.", "quantifier": "for all factor matrices, users or batches of users, interaction matrices, filters, restrictions, N <= N', and heap implementations; for item-item models for all similarity matrices, histories and argsort implementations", "why_tests_cant": "tests/recommender_base_test.py compares a few single queries on one small matrix; these are relations between two runs with different arguments, for every choice of the arguments, and they fail only for ties between scores.", "anchors": ["implicit/cpu/matrix_factorization_base.py: recommend, similar_items, similar_users", "implicit/cpu/topk.pyx: topk", "implicit/nearest_neighbours.py: recommend, similar_items", "implicit/gpu/matrix_factorization_base.py: recommend", "tests/recommender_base_test.py"]}
{"id": "C72", "title": "Threads that share a model get the answers a single thread gets", "statement": "Any number of threads may query one fitted item-item model at the same time: every call returns what it returns alone, calls never wait for ever, and the scorer is left as new. On a factor model on the CPU, every query that reads nothing any thread updates returns what it returns on the model at the start, no call waits, and when one thread only makes updates of one side while the others only query, the factors end up as if it had been alone. Concurrent updates, or queries that read what is updated, or a first similar_items on a cold model, must not give answers that no order of the calls gives. When callers take one lock around every call, any mixture of queries and updates returns what some order of the calls returns without threads, on the CPU and on the GPU.", "quantifier": "for all numbers of threads, sequences of calls per thread, arguments, factor and similarity matrices, and all schedules (interleavings of the steps of the threads)", "why_tests_cant": "the tests never use a model from two threads; the number of interleavings of two calls is astronomical and the interpreter's switch points cannot be chosen by a test.", "anchors": ["implicit/_nearest_neighbours.pyx: NearestNeighboursScorer.lock, recommend", "implicit/cpu/matrix_factorization_base.py: item_norms, user_norms, recommend, similar_items, similar_users", "implicit/cpu/als.py: YtY, XtX, recalculate_user, partial_fit_users, partial_fit_items", "implicit/gpu/matrix_factorization_base.py: item_norms, similar_items", "implicit/gpu/als.py: YtY", "implicit/gpu/knn.cu: KnnQuery::topk_impl"]}
{"id": "C73", "title": "Native memory is given back exactly once and not used after that", "statement": "Every call into native code frees all the memory it allocated, whether it returns or raises (posv failing on a row, a keyboard interrupt in the progress bar, an exception between allocation and return), frees nothing twice and uses nothing that is freed or was never allocated; an exception raised in one thread of a parallel section reaches the caller. A device buffer exists exactly as long as some Matrix lies in it, slices included, and nothing is left once all matrices are gone. A failing allocation or CUDA call is reported as a Python exception and loses no memory.", "quantifier": "for all numbers of threads, distributions of rows, schedules, failing rows and failing library calls; for all histories of creating, slicing, copying, resizing, using and dropping matrices", "why_tests_cant": "tests do not make malloc or CUDA calls fail, do not measure leaked memory, and cannot choose the schedule of OpenMP threads or the moment another thread resizes a matrix; use of freed memory often goes unnoticed.", "anchors": ["implicit/cpu/_als.pyx: _least_squares, _least_squares_cg, _calculate_loss", "implicit/cpu/lmf.pyx: lmf_update", "implicit/_nearest_neighbours.pyx: all_pairs_knn, NearestNeighboursScorer", "implicit/gpu/bpr.cu: bpr_update", "implicit/gpu/matrix.cu: Matrix, Matrix::resize, CSRMatrix, COOMatrix", "implicit/gpu/random.cu: RandomState", "implicit/gpu/als.cu: LeastSquaresSolver", "implicit/gpu/_cuda.pyx: Matrix, CSRMatrix, COOMatrix, RandomState, LeastSquaresSolver"]}
{"id": "C74", "title": "A call that raises leaves the model as it was", "statement": "A caller that catches exceptions can forget the calls that raised. In every history of calls on a model (queries, explain, recalculate, partial_fit_users, partial_fit_items, fit; for item-item and approximate models their own calls; for GPU models also pickling and conversion), leaving out calls that raised, and also queries that returned, changes nothing else: every other call returns or raises exactly what it did, the factors at the end are the same, and every later query gives the same answer.", "quantifier": "for all histories of calls, all arguments (ids of any sign, rows of any number, out-of-range items), all starting states of the caches, all subsets of the forgettable calls", "why_tests_cant": "tests check that an exception is raised, not that the object is unchanged afterwards; the damage (a longer table, a cache filled on the way to the exception) only shows in later calls of other methods", "anchors": ["implicit/cpu/als.py: partial_fit_users, partial_fit_items, recalculate_user, recalculate_item, fit", "implicit/cpu/matrix_factorization_base.py: recommend, similar_items, similar_users, user_norms, item_norms", "implicit/cpu/lmf.pyx: LogisticMatrixFactorization.fit", "implicit/gpu/als.py: partial_fit_users, partial_fit_items, fit", "implicit/gpu/matrix_factorization_base.py: recommend, similar_items, similar_users", "implicit/nearest_neighbours.py: ItemItemRecommender", "implicit/ann/annoy.py, implicit/ann/nmslib.py, implicit/ann/faiss.py"]}
{"id": "C75", "title": "A model can be trained again, whatever happened before", "statement": "A model object whose training failed or gave a useless result can be trained again: calling fit on it with data that fits its size trains it. In particular a fit that raised ModelFitError because of NaN, or a fit on a matrix without entries, does not determine the outcome of the fits that follow; and a model that has learnt something from the data does not lose it by training further on it.", "quantifier": "for all histories of two fits: all data, factor values, parameters, numbers of epochs, draws, threads and schedules", "why_tests_cant": "tests fit a fresh model once; a second fit reuses the factors that the first one left, and the outcome depends on rules of IEEE arithmetic over whole training runs", "anchors": ["implicit/cpu/als.py: AlternatingLeastSquares.fit", "implicit/cpu/als.py: least_squares, least_squares_cg", "implicit/cpu/_als.pyx: _least_squares, _least_squares_cg", "implicit/cpu/bpr.pyx: BayesianPersonalizedRanking.fit, bpr_update", "implicit/cpu/lmf.pyx: LogisticMatrixFactorization.fit, lmf_update", "implicit/gpu/als.py: AlternatingLeastSquares.fit", "implicit/gpu/als.cu: least_squares_cg_kernel", "implicit/cpu/matrix_factorization_base.py: _check_fit_errors", "implicit/gpu/bpr.cu: bpr_update_kernel"]}
{"id": "C76", "title": "Files and arrays of any origin", "statement": "load never executes code from a file, sets exactly the attributes that the file names, and gives a model whose answers follow from the factors (or the similarity matrix) in the file. A file whose contents do not fit together is refused, by load or by the first call, with an exception; no method reads or writes outside of its arrays.", "quantifier": "for all archives (names, values, shapes, memory orders, index arrays), all classes that save and load them, and all queries afterwards", "why_tests_cant": "tests load only what the same class has just saved; out-of-bounds reads in native code usually go unnoticed", "anchors": ["implicit/recommender_base.py: RecommenderBase.load", "implicit/nearest_neighbours.py: ItemItemRecommender.load, recommend", "implicit/_nearest_neighbours.pyx: NearestNeighboursScorer.recommend", "implicit/nearest_neighbours.h: SparseMatrixMultiplier", "implicit/cpu/als.py: AlternatingLeastSquares.recalculate_user", "implicit/cpu/_als.pyx: _least_squares"]}
{"id": "C77", "title": "Training with a multithreaded BLAS is announced, once", "statement": "Before a CPU ALS model can be trained the process has been given one warning for every BLAS library that is set to use its own threads; after that no further model of the process warns. A process whose warning filters turn the warning into an exception cannot create a model, and an attempt that failed is not counted as the announcement.", "quantifier": "for all programs: any order of creating models, training, changing warning filters and changing the loaded libraries and their threads", "why_tests_cant": "the flag is global to the process, so that a test sees only its first use, and the outcome depends on the order of events in the whole process", "anchors": ["implicit/utils.py: check_blas_config, _checked_blas_config", "implicit/cpu/als.py: AlternatingLeastSquares.__init__"]}
{"id": "C78", "title": "Users and items without interactions do not influence the others", "statement": "Adding users or items without interactions to the training matrix does not change what is trained for the other users and items: the factors of ALS, BPR and LMF and the similarities of the item-item models are the same, given the same random numbers for the old rows, and training fails in the same cases.", "quantifier": "for all training matrices, numbers of added users and items, initial factors, parameters, numbers of iterations, draws and thread interleavings", "why_tests_cant": "a test compares two finite matrices; here the claim relates the runs on every matrix and on all its extensions, after any number of iterations", "anchors": ["implicit/cpu/als.py: fit", "implicit/cpu/_als.pyx: least_squares, least_squares_cg", "implicit/gpu/als.py: fit", "implicit/cpu/bpr.pyx: fit, bpr_update", "implicit/cpu/lmf.pyx: fit, lmf_update", "implicit/nearest_neighbours.py: tfidf_weight, bm25_weight", "implicit/_nearest_neighbours.pyx: all_pairs_knn"]}
{"id": "C79", "title": "How a matrix is stored does not matter", "statement": "Training, recommending, explaining, recalculating, the loss and the ranking metrics depend only on the numbers in the user-item matrix and not on how it is stored: not on its format (CSR, CSC, COO), on the order of the entries within a row, on whether a number is stored in several parts that are to be added, or on whether zeros are stored.", "quantifier": "for all matrices and all pairs of ways to store the same matrix, all parameters, initial factors, draws, numbers of iterations and thread interleavings", "why_tests_cant": "tests build matrices with scipy, mostly sorted and without duplicates or stored zeros; the claim relates the runs on every two representations of every matrix", "anchors": ["implicit/utils.py: check_csr", "implicit/cpu/als.py: fit, explain, recalculate_user, recalculate_item", "implicit/cpu/_als.pyx: least_squares, least_squares_cg, calculate_loss", "implicit/gpu/als.py: fit, recalculate_user", "implicit/cpu/matrix_factorization_base.py: recommend", "implicit/cpu/bpr.pyx: fit", "implicit/cpu/lmf.pyx: fit", "implicit/evaluation.pyx: ranking_metrics_at_k", "implicit/nearest_neighbours.py: fit, normalize, tfidf_weight, bm25_weight", "implicit/_nearest_neighbours.pyx: all_pairs_knn"]}
{"id": "C80", "title": "The native ALS loops use their memory rightly", "statement": "least_squares, least_squares_cg and calculate_loss, given a valid matrix and factor arrays that fit it, never read memory outside their arrays or a number that was not written before, write nothing but the rows of the factors they compute, and return exactly the row-wise solutions and the loss, whatever the memory layout of the factor arrays, the number of threads, the division of the rows among them, their order, and the contents of the memory that malloc returns.", "quantifier": "for all CSR arrays that pass scipy's check, all factor arrays, regularizations, numbers of CG steps and factors, all divisions and orders of the rows over threads and all contents of the scratch buffers", "why_tests_cant": "reads of uninitialised or stale scratch memory often return zeros in tests, races need particular schedules, and tests use arrays in C order only", "anchors": ["implicit/cpu/_als.pyx: _least_squares", "implicit/cpu/_als.pyx: _least_squares_cg", "implicit/cpu/_als.pyx: _calculate_loss"]}
{"id": "C81", "title": "The native SGD loops use their memory rightly", "statement": "bpr_update and lmf_update, given a valid matrix and factor arrays that fit it, change exactly the elements of the arrays that the element-wise description of the update changes, to the same values, touch no other memory and stay inside the arrays, whatever the memory layout of the factor arrays, the number of threads, the division of the samples or rows among them and the interleaving of their instructions.", "quantifier": "for all matrices, factor arrays and layouts (strides), draws, learning rates and regularizations, all numbers of threads and all interleavings of their instructions", "why_tests_cant": "tests use arrays allocated by fit itself, which are in C order; a wrong address usually still lies in the same array and only changes the factors of another row", "anchors": ["implicit/cpu/bpr.pyx: bpr_update", "implicit/cpu/lmf.pyx: lmf_update"]}
{"id": "C82", "title": "Element types: every documented dtype works and matrices of any numeric type are accepted", "statement": "A model created with dtype float32 or float64 (GPU: float16 or float32) has factors of that type after every sequence of calls, its calls never fail because of element types, return scores of that type, and accept matrices whose values are booleans, integers or floats of any width and whose index arrays have 32 or 64 bits.", "quantifier": "for all element types of values and indices, all sequences of fit, recommend, similar_items, similar_users, explain, recalculate_* and partial_fit_* calls, all solver options, python or numpy numbers as alpha, numpy 1 and numpy 2 promotion", "why_tests_cant": "the failing combinations (integers with item-item models, float16 models moved to the CPU, 64 bit indices, mixed factors) are combinations of options that tests do not enumerate, and depend on the order of calls", "anchors": ["implicit/cpu/als.py: fit", "implicit/cpu/_als.pyx: _check_als_dtype", "implicit/cpu/topk.pyx: topk", "implicit/cpu/lmf.pyx: fit", "implicit/_nearest_neighbours.pyx: all_pairs_knn", "implicit/nearest_neighbours.py: recommend", "implicit/gpu/_cuda.pyx: Matrix"]}
{"id": "C83", "title": "Item-item models in floating point", "statement": "After fit of an item-item model, every similarity is the exact one up to the rounding error of a sum with one product per common user, the listed neighbours are the best up to these errors, similarities are symmetric to the last bit, whole numbers below 2^53 are handled without any error, cosine similarities are accurate whatever the magnitudes of the counts, recommend scores are accurate to the rounding of their sums, and with CosineRecommender no item is more similar to an item than the item itself.", "quantifier": "for all matrices, all K, all heaps, all roundings with a relative error bound (IEEE 754 as an instance), all rows of users, with and without removal of liked items", "why_tests_cant": "tests compare with tolerances on small matrices; the bounds must hold for every length of column and magnitude, and the inversion of self similarity needs counts for which exact cosines differ by less than one unit in the last place", "anchors": ["implicit/nearest_neighbours.h: SparseMatrixMultiplier", "implicit/_nearest_neighbours.pyx: all_pairs_knn, NearestNeighboursScorer", "implicit/nearest_neighbours.py: normalize, CosineRecommender"]}
{"id": "C84", "title": "Ranking metrics in floating point", "statement": "The values returned by ranking_metrics_at_k (and precision_at_k, mean_average_precision_at_k, ndcg_at_k, AUC_at_k) are, as computed in double precision, within [0, 1], equal to the exact precision up to one rounding and to the exact MAP, NDCG and AUC up to bounds that depend only on K and the number of users, and exactly 1 for precision, MAP and NDCG if every list of recommendations begins with the relevant items.", "quantifier": "for all models that answer with K different existing items, all test matrices, batch sizes, K, all monotone roundings that are exact on halves of integers (IEEE 754 as an instance)", "why_tests_cant": "tests compare single values with tolerances; that no sum of rounded terms leaves the interval is a statement about all rankings and user counts, and the case where NDCG does leave it needs particular numbers of relevant items in a particular order of users", "anchors": ["implicit/evaluation.pyx: ranking_metrics_at_k"]}
{"id": "C85", "title": "Feedback moves ALS scores the right way, and regularisation bounds them", "statement": "When a user (or item) is recalculated with recalculate_user, partial_fit_users or recommend(recalculate_user=True): liking an item raises its score, raising the value of a liked item moves its score towards 1 and making the value of a disliked item more negative moves it towards 0, turning a like into a dislike lowers the score, no single entry moves the factor further than its weight, the error and the regularisation allow, a larger regularization gives a shorter factor and a larger loss on the data, and the lengths of the factors and the scores are bounded by the weight of the likes; the same bounds hold after fit with the direct solvers.", "quantifier": "for all models with positive regularization and alpha, all item factors, all rows of distinct columns with any values, all changes of one entry, all numbers of iterations and initial factors", "why_tests_cant": "a test shows the movement of one score for one user; that no combination of factors, other entries and weights makes a like lower the score (and exactly when it does) needs an argument about the whole least squares problem", "anchors": ["implicit/cpu/als.py: recalculate_user, recalculate_item, partial_fit_users, fit", "implicit/cpu/_als.pyx: _least_squares", "implicit/cpu/matrix_factorization_base.py: recommend"]}
{"id": "C86", "title": "A BPR or LMF training step improves what it was drawn for", "statement": "A BPR sample raises the liked item relative to the disliked item for its user: always without regularization, and with regularization whenever they are in the wrong order; its effect on the scores of other users and items is the one prescribed by the shared factors; averaged over the random draws, the change of all factors is the learning rate times the gradient of the pairwise ranking objective over all (user, liked, not liked) triples, negatives weighted by popularity. An LMF row update moves no factor by more than the learning rate and does not lower the log-likelihood of the row once its accumulated squared derivatives are large enough for the curvature.", "quantifier": "for all factors, matrices, numbers of factors, learning rates up to sqrt 2 and regularization up to sqrt 2 (with lr <= sqrt 2 (1 - lr reg)), all samples; for LMF all rows with non-negative confidences and all drawn negatives", "why_tests_cant": "training is random: a test sees one run and a metric that goes up most of the time; the effect of every possible sample on its pair, and the exact mean over all draws, are statements about all samples and factors", "anchors": ["implicit/cpu/bpr.pyx: bpr_update", "implicit/cpu/lmf.pyx: lmf_update"]}
{"id": "C87", "title": "Better recommendations get better metrics", "statement": "When two models are evaluated on the same train and test data and, for every evaluated user, the first n recommendations of one contain at least as many relevant items as the first n of the other, for every n up to K, none of precision, MAP, NDCG and AUC is lower for it. If for some user and some n it has more, its MAP, NDCG and AUC are higher; if for some user it has more relevant items in all, its precision is higher. Moving a relevant item up past an irrelevant one, or replacing an irrelevant item by a relevant one, makes a list better in this sense.", "quantifier": "for all pairs of models answering each evaluated user with K different existing items, all test matrices with existing items that leave some item irrelevant for each user, all K >= 1, all batch sizes, all numbers of items, all positive strictly falling discounts (those of the code are)", "why_tests_cant": "tests compare the metrics of fixed lists with fixed numbers; that no improvement of any list can lower any metric is a statement about all pairs of lists", "anchors": ["implicit/evaluation.pyx: ranking_metrics_at_k"]}
{"id": "C88", "title": "Splits are drawn fairly", "statement": "leave_k_out_split holds out every set of K ratings of an eligible user equally often over the outcomes of its random draws, and the held-out sets of different users are independent, up to outcomes with tied sort keys; so each of the c ratings of an eligible user is held out in K of c cases. train_test_split puts every rating into train with the same probability, the share of values of the generator below train_percentage (train_percentage itself up to 1/2^53), independently of the other ratings.", "quantifier": "for all ratings without repeated cells, all K >= 1, all train_only_size in [0,1), all reserved users, all finite sets of equally likely draw values, all sorting algorithms behind argsort, all roundings that keep users apart; for all train_percentage in [0,1]", "why_tests_cant": "a test sees a few splits; equal numbers of outcomes for all choices is a counting statement over all draws", "anchors": ["implicit/evaluation.pyx: leave_k_out_split, _take_tails, train_test_split"]}
{"id": "C89", "title": "Item-item recommendations follow the ratings", "statement": "For the item-item models (ItemItemRecommender and CosineRecommender): raising a user's rating of item j by v > 0 adds v times the similarity of j to the score of every recommended item, so items similar to j go up and items j has nothing to do with keep their score; multiplying all ratings of a user by c > 0 gives exactly the same list with scores multiplied by c; fitting with a larger K keeps every neighbour and, for non-negative data, never lowers a similarity or a score; one more user in the training data raises the similarity of items i and j by the product of that user's two ratings, and for 0/1 data raises the cosine of two items the user has both and lowers the cosine of two items of which the user has one; a cosine score is never above the sum of the user's absolute ratings.", "quantifier": "for all similarity matrices, all users and ratings, all training data, all K and N, all heap implementations, ties included", "why_tests_cant": "a test compares a few pairs of calls; monotonicity relates every pair of inputs", "anchors": ["implicit/nearest_neighbours.py: ItemItemRecommender.fit, recommend, similar_items; CosineRecommender.fit", "implicit/nearest_neighbours.h: SparseMatrixMultiplier, TopK", "implicit/_nearest_neighbours.pyx: all_pairs_knn, NearestNeighboursScorer"]}
{"id": "C90", "title": "In floating point a recalculated ALS factor is right up to a stated error", "statement": "recalculate_user, recalculate_item, partial_fit_* and fit with use_cg=False in floating point (Gram matrix, accumulation of each row's system and LAPACK solution all rounded): the computed factor satisfies the normal equations of the weighted regularised problem up to a residual rho = (g + kappa(1+g)) T |x| + g B, where g = (1+u)^(items+stored+5) - 1, T and B measure the size of the system and kappa is LAPACK's constant. Hence it is within rho/regularization of the unique optimum, its loss exceeds the minimum by at most rho^2/regularization, an iteration of fit never increases the objective by more than the sum of these, recommend(recalculate_user=True) returns the best N items of the optimal factor up to the resulting score errors, and if (g + kappa(1+g)) T is below the regularization LAPACK reports no error. The same bounds hold for the python solver (use_native=False, use_cg=False), with kappa the constant of np.linalg.solve times the number of factors.", "quantifier": "for all factors, all confidences (positive, negative, zero), all regularization > 0, all orders of summation in BLAS, with or without fused multiply-add, all roundings with relative error u, all backward stable solvers; no overflow or underflow", "why_tests_cant": "a test compares with a tolerance found by trial on a few matrices; the bound holds for every input and every summation order", "anchors": ["implicit/cpu/_als.pyx: _least_squares, least_squares", "implicit/cpu/als.py: recalculate_user, recalculate_item, YtY, XtX", "implicit/cpu/als.py: least_squares, user_linear_equation, user_factor, item_factor"]}
{"id": "C91", "title": "In floating point the conjugate gradient solver knows how good its factors are", "statement": "fit with use_cg=True (the default) in floating point, with Gram matrix, products and vector updates rounded in any order: for every user, the residual vector r that the solver updates in each round (and compares with its tolerance) differs from the true residual of the weighted regularised problem over all items by at most e = (k+1)(1+u)^(4k) ((1+u)^(items+stored+factors+12) - 1)(12 T X + B), where k is cg_steps, T and B measure the size of the user's system and X bounds the factors met on the way. Hence the trained factor is within (|r| + e)/regularization of the unique optimum, its loss exceeds the minimum by at most (|r| + e)^2/regularization, and half an iteration brings the objective to its minimum over that side's factors up to the sum of these. When the solver stops before cg_steps rounds, |r| is at most sqrt(2*tolerance), so the factor is the optimum up to tolerance and rounding, and a larger cg_steps gives the same factor. The same bounds hold for the CUDA kernel (fit and recalculate_user on the GPU, single precision factors; its dot product over a thread block has at most eleven roundings per product, whatever the number of factors) and for the python least_squares_cg.", "quantifier": "for all factors, all confidences (positive, negative, zero), all regularization > 0, all starting factors, all cg_steps and tolerances, all orders of summation in BLAS, with or without fused multiply-add, all roundings with relative error u where (1+u)^(factors+2) <= 3/2; no overflow or underflow", "why_tests_cant": "conjugate gradients lose orthogonality in floating point, so exact-arithmetic convergence arguments do not apply and a test on a few well conditioned matrices says nothing about others; that the recursively updated residual stays close to the true one must be shown for all of them", "anchors": ["implicit/cpu/_als.pyx: _least_squares_cg, least_squares_cg", "implicit/cpu/als.py: AlternatingLeastSquares.fit, solver", "implicit/gpu/als.cu: least_squares_cg_kernel, l2_regularize_kernel, calculate_yty", "implicit/gpu/als.py: recalculate_user, recalculate_item", "implicit/cpu/als.py: least_squares_cg", "implicit/gpu/dot.cuh: dot, warp_reduce_sum"]}
{"id": "C92", "title": "The training loss that is reported is the loss, up to rounding, whatever the threads do", "statement": "calculate_loss (and fit with calculate_training_loss=True) in floating point: whatever rows each thread gets and in whatever order BLAS adds, the reported number differs from the dense regularised loss (plus the confidences of stored negative values, see C12) over the sum of all confidences by at most (1+v) g (N + |loss| W) / (w - g W) + v |loss|, where w is the sum of all confidences, N and W are the sizes of the two sums without cancellation and g = (1+u)^(items + stored + 2 factors + 8) (1+v)^(K + threads + 3) - 1, u being the precision of the factors, v that of the sums and K the number of terms a thread adds. On the GPU the same holds with v = u and blocks instead of threads, whatever the order in which the blocks finish. So two runs on the same factors agree up to twice this. A reported loss is never negative.", "quantifier": "for all sparse matrices with valid rows, all factors, all regularization >= 0, all divisions of users and items among any number of threads, all orders of summation in BLAS, all orders in which the 1024 blocks of the GPU finish, with or without fused multiply-add, all roundings with relative errors u and v; no overflow or underflow", "why_tests_cant": "the schedule is dynamic, so each run of a test sees one order of summation; and the cancellation between the stored confidences and the quadratic part depends on the data", "anchors": ["implicit/cpu/_als.pyx: calculate_loss, _calculate_loss", "implicit/cpu/als.py: AlternatingLeastSquares.fit", "implicit/gpu/als.cu: calculate_loss_kernel, LeastSquaresSolver::calculate_loss"]}
{"id": "C93", "title": "Approximate models rank by inner product up to rounding, and build no NaN", "statement": "augment_inner_product_matrix in floating point: for a non-empty catalogue no row becomes NaN (if numpy's scalar power is not below the rounded square), each row starts with the factor, the returned norm is the length of a longest factor, and all rows have this length up to a relative error 3 ((1+u)^(f+6) - 1). AnnoyModel.recommend and NMSLibModel.recommend, on an index whose answered distances are right up to an error d in the cosine, return at most N distinct items that are not filtered, fewer only if no others are left; the scores, the order, and the choice are those of the inner products with the user factor up to ((( 1+v)^(f+7) - 1)(3 + d) + d + 3 ((1+u)^(f+6) - 1)) * (largest norm) * (length of the user factor). An item orthogonal to the user has score 0.", "quantifier": "for all item factors, all users, all orders of summation in the norms, all index answers within the error d >= 0, all N, all liked items and filters given as lists, all roundings with relative errors u (factors) and v (scores) where (1+u)^(f+6) <= 9/8; no overflow or underflow", "why_tests_cant": "tests compare with the exact ranking on data without near ties and with tolerances; how the error depends on the number of factors, the longest item and the precision of the index cannot be seen from samples, and a NaN needs a particular largest norm", "anchors": ["implicit/utils.py: augment_inner_product_matrix", "implicit/ann/annoy.py: AnnoyModel.recommend", "implicit/ann/nmslib.py: NMSLibModel.recommend"]}
{"id": "C94", "title": "Training of LogisticMatrixFactorization stays in range", "statement": "One epoch of LogisticMatrixFactorization.fit moves no factor by more than the learning rate: with exact numbers the factors after k epochs differ from the initial ones by at most k * |learning_rate| in every component (except the column that is set to one), whatever the data, weights, regularisation and samples are. In floating point, where the largest float is finite and the sums of squares are stored as float: if the initial factors are at most B and the sizes of the weights, of the rows and columns, and of the number of epochs allow it, fit completes, raises no ModelFitError, and all factors are finite and at most ((1+u)^2)^k (B + k (step + 2 eta)) where step is the learning rate up to rounding. In particular float32 suffices for 30 epochs with learning rate at most 1 on matrices with up to a million entries of size up to a million per row and column and initial factors at most 10: all factors are finite and at most 41.", "quantifier": "for all sparse matrices with columns in range, all initial factors within the bound, all random draws, all numbers of factors, epochs and negative samples, all learning rates and regularisations, all monotone roundings with relative error u and absolute error eta (float32/float64 for the factors, double for the step), every exp with values in [0,1] on nonpositive arguments", "why_tests_cant": "overflow needs large weights or long training; a finite set of runs shows neither that no matrix overflows nor how far factors can get", "anchors": ["implicit/cpu/lmf.pyx: LogisticMatrixFactorization.fit, lmf_update, sigmoid"]}
{"id": "C95", "title": "The example programs list every entity with its own answer", "statement": "examples/lastfm.py and examples/movielens.py take the entities by number of users (most first, equal ones by id; users by id), ask the trained model in batches of 1000 and write one line per answer entry: the file is the concatenation, over all entities in that order, of lines (name of the entity, name of the neighbour or recommendation, score) in the order of the answer, independent of the cut into batches. For matrix factorization models the section of an item has the 11 items of greatest cosine; movies without a rating at or above min_rating are skipped; the section of a user has the 10 best artists the user has not listened to. min_rating keeps exactly the nonzero ratings of at least the minimum, as ones. No line names an entity that is not in the answer.", "quantifier": "for all names, matrices, factors and similarity matrices of matching sizes, all numbers of entities (any number of batches), all heap and sort implementations", "why_tests_cant": "the batches and padding depend on sizes beyond 1000 and on sparse data; only a proof covers every cut into batches and every catalogue", "anchors": ["examples/lastfm.py: calculate_similar_artists, calculate_recommendations", "examples/movielens.py: calculate_similar_movies"]}
{"id": "C96", "title": "BPR training with one thread stays in range", "statement": "BayesianPersonalizedRanking.fit(num_threads=1) with learning_rate >= 0 and 0 <= learning_rate * regularization <= 1, in exact arithmetic: let the energy be the sum of the squares of all trained factors with item biases counted twice. Each sample, whatever was drawn, multiplies the energy at most by G = max(1, (1 - lr reg)^2 + 2 lr^2) and adds at most g = 4/3 lr + 4 lr^2, so after n samples it is at most G^n (E + n g), also when the fit continues from given factors. A fit from scratch ends with every factor at most sqrt(G^n ((users + 3 items)/4 + n g)) in absolute value; with the default parameters, up to a million users and items and up to 10^8 samples, below 2700. The condition cannot be dropped: with lr * reg > 2 the factors of a one-user, one-item model exceed every bound after enough iterations.", "quantifier": "for all matrices, numbers of factors, random initial values in [0,1], sequences of draws, numbers of iterations, both settings of verify_negative_samples", "why_tests_cant": "divergence depends on long adversarial sequences of samples; a test sees a few random ones. The proof bounds every sequence, including those in which the liked and disliked item coincide and the two updates alias", "anchors": ["implicit/cpu/bpr.pyx: BayesianPersonalizedRanking.fit, bpr_update"]}
{"id": "C97", "title": "BPR training in single precision neither overflows nor produces NaN", "statement": "BayesianPersonalizedRanking.fit(num_threads=1) with verify_negative_samples (the default), learning_rate and regularization between 0 and 1, computed with rounded operations (relative error u, absolute error eta, u (factors + 2) <= 1/1000, 100 (factors + 2) eta (E + 1) <= u) that overflow above a largest number: if the bound G^n (E0 + n g) on the energy after n samples (growth G and gain g of one sample now including the rounding of the score, of the logistic function and of every update) is at most E and the largest number is at least 10 (E + 1), fit raises no ModelFitError and every factor is a finite number with energy below the bound, whatever is drawn. For float32 with learning_rate = regularization = 0.01, up to 100 factors, a million users, a million items and 10^8 samples from initial factors of size at most 1/factors, all this holds and the factors end below 10^17. An overflow of exp(score) to infinity is harmless: it gives z = 0.", "quantifier": "for all matrices, initial factors in range, sequences of draws, numbers of iterations, all rounding functions with the given relative and absolute error that are monotone and exact on halves, and every exp with relative error at most 1/16", "why_tests_cant": "overflow depends on long adversarial sequences of samples and on accumulated rounding; tests see a few random runs of a few epochs", "anchors": ["implicit/cpu/bpr.pyx: BayesianPersonalizedRanking.fit, bpr_update", "implicit/cpu/matrix_factorization_base.py: _check_fit_errors"]}
{"id": "C98", "title": "In floating point an explanation is right up to a stated error", "statement": "AlternatingLeastSquares.explain(userid, user_items, itemid), with every operation rounded (factors and their products in their own precision, the matrix, the solution, contributions and total in double precision): if the regularization exceeds the rounding error of the user's system, explain raises no error; the total differs from the score of the item for the exact least squares user factor by at most an explicit bound in the data; exactly min(N, number of non-negative entries) distinct items are listed, best first, each with its exact contribution up to an explicit bound, and no omitted entry contributes more than a listed score by more than that bound. Passing the returned weights to a later call gives exactly the same answer as not passing them. If all contributions are listed, the total is their sum up to the rounding of the additions. The total and the score of recommend(recalculate_user=True) differ by at most the two errors together.", "quantifier": "for all item factors, stored rows with distinct items in range, items, N, regularization > 0, all rounding functions with the given relative errors, all orders of summation in BLAS, all backward stable Cholesky solvers and all correct heaps", "why_tests_cant": "a test compares total and score for a few rows with a fixed tolerance; the bound holds for all conditionings and summation orders and tells when the tolerance is justified", "anchors": ["implicit/cpu/als.py: AlternatingLeastSquares.explain", "implicit/cpu/als.py: user_linear_equation"]}
{"id": "C99", "title": "TF-IDF and BM25 similarities are accurate in floating point for users without nearly all items", "statement": "tfidf_weight and bm25_weight, with every operation rounded (ratings in single or double precision, idf in double precision, logarithms from a library with a stated relative error): for positive ratings of users who rated fewer than n - 1 of the n items every stored weight is positive, in the cell of its rating and within an explicit factor of the exact weight, whatever the order in which numpy sums the mean. After TFIDFRecommender.fit and BM25Recommender.fit the row of item i lists items with a user in common (K of them, all if there are fewer), similarities within an explicit error of the exact cosine (TF-IDF) or inner product (BM25), and no item instead of another that is better by more than the two errors. In double precision, up to a million items and ratings per item, a TF-IDF similarity is off by less than 1e-7. Without the condition on the users this fails: for a user with n - 1 of n items idf is exactly 0, but the two logarithms may differ in the last place and normalize turns the difference into a similarity of 1.", "quantifier": "for all rating matrices with positive ratings, all K, K1 >= 0, B in [0,1], all roundings with the given relative errors, all logarithm libraries with the given relative error, all orders of summation of the mean and all correct heaps", "why_tests_cant": "a test compares a few weights with a tolerance; cancellation in log(N) - log1p(df) depends on N and on the math library, and the tests have no user with almost all items", "anchors": ["implicit/nearest_neighbours.py: tfidf_weight", "implicit/nearest_neighbours.py: bm25_weight", "implicit/nearest_neighbours.py: TFIDFRecommender.fit", "implicit/nearest_neighbours.py: BM25Recommender.fit"]}
{"id": "C100", "title": "Queries of models with finite factors do not overflow in the stated range", "statement": "With infinities and NaN as in IEEE 754: if (1+u)^f * sum |x_i y_i| (plus the share of subnormal products) of a query and every item that is not filtered is below the largest float, recommend returns k unfiltered items with finite scores, within the rounding error of the exact scores and ranked correctly up to it, whatever the order of summation and whatever the filtered items score. similar_items, without underflow, needs the same for each vector with itself. In single precision every model with up to 1024 columns and entries up to 2^58 is in range, and so are all BPR models trained with the defaults and all LMF models trained in the range of C94. As long as no score is NaN, infinite scores are ranked correctly too: +inf before finite scores, -inf last. Beyond the range finite factors give: an item with score NaN returned instead of a better one, a filtered item returned because all others have -inf, items with +inf that are not told apart, scores that are finite or infinite depending on the order of summation, similarity NaN of an item to itself.", "quantifier": "for all finite factors in range, all filters that leave k items, all k >= 1, all numbers of factors, all roundings with the given errors, all orders of summation with and without fused multiply-add", "why_tests_cant": "a test has factors of size about 1; overflow of partial sums depends on the order of summation chosen by the BLAS library", "anchors": ["implicit/cpu/matrix_factorization_base.py: MatrixFactorizationBase.recommend", "implicit/cpu/matrix_factorization_base.py: MatrixFactorizationBase.similar_items", "implicit/cpu/topk.pyx: topk", "implicit/cpu/select.h: select"]}
{"id": "C101", "title": "Initial factors are in their ranges in floating point, and BPR works from the draws to the recommendations", "statement": "New models, every operation rounded: initial factors of CPU ALS are in [0, 0.01], those of BPR (CPU and GPU) at most 0.5/factors in absolute value, those of GPU ALS at most 0.5/factors rounded to double, float and the type of the factors, with and without fused multiply-add; for numpy's draws a BPR factor is the exact one rounded once. A BPR model trained from any draws in [0,1) in single precision (1 to 100 factors, a million users and items, 10^8 samples, default rates, one thread) has finite factors, and recommend for every user returns finite scores, correct up to rounding. implicit.gpu.RandomState.uniform keeps every symmetric range but not others: uniform(low=-1, high=0.75*2^-23) can return 2^-23.", "quantifier": "for all draws in [0,1) (cuRAND: (0,1]), all numbers of factors and all precisions with symmetric monotone rounding; all matrices, schedules of one thread, filters and k in the stated sizes", "why_tests_cant": "tests see a few draws of one seed; whether a rounded bound can be exceeded depends on the extreme draws and the number of factors", "anchors": ["implicit/cpu/als.py: AlternatingLeastSquares.fit", "implicit/cpu/bpr.pyx: BayesianPersonalizedRanking.fit", "implicit/gpu/als.py: AlternatingLeastSquares.fit", "implicit/gpu/bpr.py: BayesianPersonalizedRanking.fit", "implicit/gpu/random.cu: RandomState::uniform"]}
{"id": "C102", "title": "ALS with the direct solver never overflows on data in range, from fit to recommend", "statement": "CPU ALS with use_cg=False in floating point with overflow: if the sums of absolute values and of positive values of every row and column are bounded, the regularization exceeds the rounding errors and the stated bound on the system is below the largest number, then fit (any number of iterations, at least one; any user factors, even NaN, since they are overwritten; item factors of length at most B) raises no error, no intermediate number of the systems overflows, all factors of all iterations have length at most B, they are the factors of the computation without overflow, and recommend for every user has finite scores, correct up to rounding. Beyond the range: with one item factor 2^64 in single precision the exact optimum is below 1, but LAPACK is given an infinite matrix.", "quantifier": "for all matrices, numbers of factors, iterations, orders of summation in the Gram matrices (with and without fused multiply-add) and initial factors in the range", "why_tests_cant": "tests train a few small matrices; whether training can drift out of range over the iterations needs an invariant over all of them, and the order of summation in BLAS varies by machine", "anchors": ["implicit/cpu/_als.pyx: _least_squares", "implicit/cpu/als.py: AlternatingLeastSquares.fit", "implicit/cpu/matrix_factorization_base.py: MatrixFactorizationBase.recommend"]}
{"id": "C103", "title": "Item-item models in floating point never overflow on data in range, from fit to recommend", "statement": "ItemItemRecommender in floating point with overflow, infinities and NaN: if for all pairs of items (1+u)^(c+1) (mass + 2 c eta) is at most the largest number, where c is the number of users with both items and mass the sum of the absolute products, then fit raises no error, all similarities are finite, and every row has the K best of C83, correct up to rounding (row 0 with the known padding entry excepted). recommend in range likewise, with and without filter_already_liked_items, and leaves the accumulator clean. In double precision: up to 10^9 users and stored values up to 10^50 are always in range, from fit to recommend. The same holds for CosineRecommender.fit with non-zero values (in single precision up to 10^18), normalization included, for TFIDFRecommender.fit with positive ratings up to 10^40 and for BM25Recommender.fit with positive ratings up to 10^15, K1 up to 10^6 and B from 0 to 1, of users without nearly all items, when nothing underflows; the recommendations from such ratings are finite too. Beyond the range: one user with two values 2^600 gives infinite similarities, and cosine normalization turns a single value 2^600 (in single precision 2^65) into weight 0 instead of 1; BM25 weights are NaN when the sum of the single precision ratings of an item overflows, even for B = 0; cosine weights of an item with only stored zeros are NaN.", "quantifier": "for all matrices, K, heaps that satisfy the contract of the C++ heap, roundings with unit roundoff u and absolute error eta, users and lists of items in the range", "why_tests_cant": "tests use small counts; whether partial sums can overflow while the total is in range depends on all orders and cancellations in between", "anchors": ["implicit/_nearest_neighbours.pyx: all_pairs_knn", "implicit/_nearest_neighbours.pyx: NearestNeighboursScorer.recommend", "implicit/nearest_neighbours.h: SparseMatrixMultiplier", "implicit/nearest_neighbours.py: normalize", "implicit/nearest_neighbours.py: CosineRecommender.fit", "implicit/nearest_neighbours.py: tfidf_weight, TFIDFRecommender.fit", "implicit/nearest_neighbours.py: bm25_weight, BM25Recommender.fit"]}
