{"id": "C01", "title": "Linear index and multi-index are inverse", "statement": "Decoding a linear position a into a multi-index with respect to dims and encoding it back yields a; encoding an in-range multi-index and decoding it yields the same multi-index; the decoded index is always in range.", "quantifier": "all dims vectors of any length with positive entries, all a below the total size, all in-range indices", "why_tests_cant": "unbounded rank and sizes; a test covers a few shapes", "anchors": ["include/Gindex.hpp: Gindex(int,Gdims), to_int", "include/Gdims.hpp: asize"]}
{"id": "C02", "title": "Index enumeration visits every cell once in row-major order", "statement": "for_each_index calls the callback exactly once for each in-range multi-index, in increasing row-major order. (False for rank 0: asize()==1 but the callback is never called.)", "quantifier": "all dims vectors", "why_tests_cant": "number of shapes is infinite; the rank-0 case silently does nothing", "anchors": ["include/Gdims.hpp: for_each_index, asize, strides"]}
{"id": "C03", "title": "Row-major strides address a dense block one cell per index", "statement": "The default strides built from dims give each in-range multi-index its own offset, and the offsets are exactly 0..asize-1, equal to the linear index.", "quantifier": "all dims vectors, all indices", "why_tests_cant": "injectivity over all index pairs", "anchors": ["include/GstridesB.hpp: GstridesB(Gdims,int), offs"]}
{"id": "C04", "title": "Leading-index offset overload agrees with the plain one", "statement": "The overload taking a separate first index i and the remaining index vector returns the offset of the full index (i,rest). (False: the value of i is ignored.)", "quantifier": "all strides, i, rest", "why_tests_cant": "wrong only when i differs from 1", "anchors": ["include/GstridesB.hpp: offs(int,vector)"]}
{"id": "C05", "title": "Reported memory size bounds every cell", "statement": "For any view whose strides are nested (each stride at least the extent below it) every in-range offset is below memsize(dims), so an allocation of memsize cells is large enough. (False for general strides.)", "quantifier": "all dims, strides, in-range indices", "why_tests_cant": "needs all stride patterns", "anchors": ["include/GstridesB.hpp: memsize", "tensors/TensorView.hpp: TensorView(Gdims,GstridesB,int), copy_keeping_strides"]}
{"id": "C06", "title": "Stride ordering is a sorting permutation", "statement": "ordering() returns a permutation of the axes that lists strides in non-decreasing order, for all strides below the sentinel; descending_ordering() lists them in non-increasing order when all strides are positive. (With a zero stride the descending version repeats an axis and loses another.)", "quantifier": "all stride vectors of any length", "why_tests_cant": "permutation property over unbounded rank; broadcast axes break it", "anchors": ["include/GstridesB.hpp: ordering, descending_ordering"]}
{"id": "C07", "title": "Contiguity test is sound", "statement": "If is_contiguous(dims) holds and no stride is zero, the in-range offsets are exactly 0..asize-1, each once. With a zero stride the test can answer yes although the view has fewer distinct cells than asize().", "quantifier": "all dims/strides", "why_tests_cant": "all stride patterns; failing case needs a broadcast view", "anchors": ["include/GstridesB.hpp: is_contiguous, is_regular", "tensors/TensorView_reshapes.inc: cinflate"]}
{"id": "C08", "title": "Fused stride covers the same cells", "statement": "When fuser(dims) reports a (stride, size) pair, the cells of the original block are exactly the cells of the single axis with that stride and size, each once.", "quantifier": "all dims/strides with positive strides and sizes", "why_tests_cant": "all stride patterns", "anchors": ["include/GstridesB.hpp: fuser", "tensors/TensorView_reshapes.inc: fuse_chunk"]}
{"id": "C09", "title": "Axis list editing laws", "statement": "Inserting an entry at position j and removing position j gives back the list; lengths, untouched entries and total size change exactly as documented; chunk and cat recombine; permuting and un-permuting gives back the list.", "quantifier": "all integer vectors, positions", "why_tests_cant": "all lengths and positions", "anchors": ["include/gvectr.hpp: insert, remove, replace, prepend, append, cat, chunk, permute"]}
{"id": "C10", "title": "Axis sets: coverage and disjointness", "statement": "covers(n,x) holds exactly when the two sets are disjoint and together contain 0..n-1; is_disjoint is exact. is_contiguous is expected to recognise runs (it answers false for every non-empty set), covers(n,x,y) is expected to use y (it does not).", "quantifier": "all finite index sets", "why_tests_cant": "all sets", "anchors": ["include/GindexSet.hpp"]}
{"id": "C11", "title": "Reshape keeps the row-major sequence", "statement": "reshape of a regular tensor to dims of equal size reads the same values in the same row-major order; reshape there and back is the identity; irregular tensors are refused.", "quantifier": "all tensors, dims", "why_tests_cant": "all shapes", "anchors": ["tensors/TensorView_reshapes.inc: reshape"]}
{"id": "C12", "title": "Axis permutations relabel cells", "statement": "transp, transp(a,b) and permute_indices give views whose cell at the permuted index is the original cell at the original index; transposing twice is the identity; no cell outside the original view becomes reachable.", "quantifier": "all views, permutations, indices", "why_tests_cant": "all ranks", "anchors": ["tensors/TensorView_reshapes.inc: transp, permute_indices", "include/Gdims.hpp: transp"]}
{"id": "C13", "title": "Sub-views address the right cells", "statement": "slice, slices, block, row(s), col(s), diag, squeeze, unsqueeze, insert_dim, cinflate: the cell of the sub-view at an in-range index is the documented cell of the parent, and that parent index is in range.", "quantifier": "all views, sub-view arguments, in-range indices", "why_tests_cant": "all ranks/strides", "anchors": ["tensors/TensorView_subtensors.inc", "tensors/TensorView_reshapes.inc"]}
{"id": "C14", "title": "Split and fuse are inverse relabellings", "statement": "split(d,a) maps index (..,i,j,..) to (..,i*a+j,..); fuse of two axes accepted by its checks reaches each old cell exactly once; fusing the split axes gives back the view. fuse01 performs no check and can return a view of different cells.", "quantifier": "all views, axes, factors", "why_tests_cant": "all strides", "anchors": ["tensors/TensorView_reshapes.inc: split, split0, split1, fuse, fuse01"]}
{"id": "C15", "title": "Scrunching keeps the cells", "statement": "scrunch() returns a view with the same cells (each with the same multiplicity); co_scrunch returns a pair of views visiting the same pairs of cells.", "quantifier": "all views, strides (incl. zero), dims", "why_tests_cant": "all stride patterns", "anchors": ["tensors/TensorView_reshapes.inc: scrunch, co_scrunch"]}
{"id": "C16", "title": "Assignment copies every element and nothing else", "statement": "After r=x (same dims, r's cells distinct and disjoint from x's), r(ix) equals the former x(ix) for every index and every other memory cell is unchanged, whichever internal path (bulk copy, row copy, loops) is taken.", "quantifier": "all ranks, dims, strides, memory contents", "why_tests_cant": "many code paths by rank/strides/size", "anchors": ["tensors/functions/TensorView_assign.hpp", "tensors/TensorView.hpp: operator=, copy"]}
{"id": "C17", "title": "Addition updates every element once", "statement": "After r.add(x) each r(ix) holds the old r(ix)+x(ix), other cells unchanged, on every internal path.", "quantifier": "all ranks, dims, strides, contents", "why_tests_cant": "many code paths", "anchors": ["tensors/functions/TensorView_add.hpp", "tensors/TensorView_cumulative_ops.inc: add"]}
{"id": "C18", "title": "Tensor equality compares all elements", "statement": "x==y is true exactly when dims agree and all elements agree. (False for irregular views: it answers true without looking.)", "quantifier": "all pairs of views", "why_tests_cant": "all views; irregular path returns true", "anchors": ["tensors/TensorView.hpp: operator=="]}
{"id": "C19", "title": "Reductions see each element once", "statement": "sum, norm2, inp, max, min equal the mathematical fold over all in-range indices. (False for broadcast views, whose contiguous path reads past the view, and for rank-0 irregular path.)", "quantifier": "all views and contents", "why_tests_cant": "all stride patterns", "anchors": ["tensors/TensorView_scalar_ops.inc"]}
{"id": "C20", "title": "Element visitor visits each cell once", "statement": "for_each(lambda) calls the callback once for each in-range index with the right cell for ranks 1 and above. (Rank 0 is never visited, so add(scalar) leaves a scalar tensor unchanged.)", "quantifier": "all views", "why_tests_cant": "all ranks; rank 0 differs", "anchors": ["tensors/TensorView_lambdas.inc: for_each", "tensors/TensorView_cumulative_ops.inc: add(TYPE)"]}
{"id": "C21", "title": "Matrix-vector products", "statement": "add_mvprod adds the matrix-vector product; add_mvprod_T is expected to add the product with the transpose. (add_mvprod_T sums over the wrong extent and is wrong or out of bounds unless the matrix is square.)", "quantifier": "all matrix sizes and entries", "why_tests_cant": "all sizes", "anchors": ["tensors/TensorView.hpp: add_mvprod, add_mvprod_T"]}
{"id": "C22", "title": "Tensor product is the Kronecker product", "statement": "add_tprod(x,y) adds x[i]*y[j] at index i*dim(y)+j along each axis, each output cell once, for ranks 1 and 2.", "quantifier": "all sizes, entries", "why_tests_cant": "all sizes", "anchors": ["tensors/TensorView.hpp: add_tprod", "tensors/TensorView_subtensors.inc: block"]}
{"id": "C23", "title": "Einsum string analysis partitions index positions (one operand)", "statement": "For every well-formed string without '_', each position of x and of r belongs to exactly one group, positions share an id exactly when they carry the same letter, and the group kind (transfer, broadcast, sum, gather) is determined by where the letter occurs.", "quantifier": "all strings", "why_tests_cant": "all strings", "anchors": ["tensors/functions/EinsumForm1.hpp"]}
{"id": "C24", "title": "One-operand einsum computes the indexed sum", "statement": "add_einsum adds to every r cell the sum over the summed letters of x at the matching index, for at most three transfer letters. (With four transfer letters the fourth uses x's stride for r, so the result is wrong.)", "quantifier": "all forms, dims, strides, contents", "why_tests_cant": "all forms; fourth letter needed to fail", "anchors": ["tensors/functions/Einsum1.hpp: add_einsum", "tensors/functions/Einsum1params.hpp"]}
{"id": "C25", "title": "One-operand einsum backward is the adjoint", "statement": "add_einsum_back is the transpose of the forward map: the inner product of r-gradient with forward(x) equals the inner product of x with backward(r-gradient).", "quantifier": "all forms, contents", "why_tests_cant": "all forms", "anchors": ["tensors/functions/Einsum1.hpp: add_einsum_back"]}
{"id": "C26", "title": "Einsum string analysis partitions index positions (two operands)", "statement": "For every well-formed string without '_' each position of x, y and r belongs to exactly one group of the right kind and equal letters share an id (except convolution letters).", "quantifier": "all strings", "why_tests_cant": "all strings", "anchors": ["tensors/functions/EinsumForm2.hpp"]}
{"id": "C27", "title": "Two-operand einsum computes the indexed sum of products", "statement": "add_einsum adds sum over contracted letters of (sum of x)*(sum of y) to every r cell for at most three transfer letters. (Wrong with four.)", "quantifier": "all forms, dims, strides, contents", "why_tests_cant": "all forms", "anchors": ["tensors/functions/Einsum2.hpp: add_einsum, make_params"]}
{"id": "C28", "title": "Two-operand einsum backward passes are adjoint", "statement": "add_einsum_back0 and back1 are the partial adjoints of the forward bilinear map, in the absence of convolution letters.", "quantifier": "all forms, contents", "why_tests_cant": "all forms", "anchors": ["tensors/functions/Einsum2.hpp: add_einsum_back0, add_einsum_back1, make_params_back0, make_params_back1"]}
{"id": "C29", "title": "Convolution letters", "statement": "With a convolution letter the forward pass computes r_i += sum_j x_{i+j} y_j for exactly the i,j that stay inside x, and the limited backward loop visits exactly the (i,j) pairs with i-j inside r.", "quantifier": "all sizes", "why_tests_cant": "all sizes", "anchors": ["tensors/functions/Einsum2.hpp: add_einsum_convo_back0, operator()", "tensors/functions/Einsum2params.hpp: contract, convolve_back"]}
{"id": "C30", "title": "Live blocks never overlap and stay in the arena", "statement": "After any history of malloc/free with positive sizes, blocks handed out and not freed are pairwise disjoint, 128-aligned and inside the arena, each at least as large as requested.", "quantifier": "all operation histories", "why_tests_cant": "all histories", "anchors": ["include/SimpleMemoryManager.hpp: malloc, free"]}
{"id": "C31", "title": "Free space stays coalesced and complete", "statement": "After any history the blocks tile the arena exactly and no two neighbouring blocks are both free; freeing everything restores one free block of the full size.", "quantifier": "all operation histories", "why_tests_cant": "all histories", "anchors": ["include/SimpleMemoryManager.hpp"]}
{"id": "C32", "title": "Allocation succeeds exactly when a large enough hole exists", "statement": "malloc(n) throws exactly when no free block has size at least n rounded up; a failed call changes nothing; it returns the lowest-addressed suitable hole.", "quantifier": "all reachable states, n", "why_tests_cant": "all histories", "anchors": ["include/SimpleMemoryManager.hpp: malloc"]}
{"id": "C33", "title": "Freeing is always well defined", "statement": "free(p) of a live pointer has defined behaviour. (False: the block map entry is used after erasure, and freeing the block at the end of the arena dereferences the end iterator.)", "quantifier": "all reachable states", "why_tests_cant": "depends on the allocator's luck at run time", "anchors": ["include/SimpleMemoryManager.hpp: free"]}
{"id": "C34", "title": "Degenerate requests get their own block", "statement": "malloc(0) still reserves a full granule, so its pointer differs from all live pointers. Requests between -254 and -127 reserve an empty block whose pointer is handed out again by the next request; more negative requests fail. (So the distinctness claim fails for negative sizes, e.g. an overflowed byte count.)", "quantifier": "all reachable states, all requested sizes", "why_tests_cant": "needs the follow-up call and unusual sizes", "anchors": ["include/SimpleMemoryManager.hpp: malloc", "include/Cnine_base_helpers.hpp: roundup"]}
{"id": "C35", "title": "Rounding up", "statement": "For x>0 roundup(x,s) is the least multiple of s at or above x; from 2-s to 0 it is s; for x<=0 it exceeds the least multiple at or above x by exactly s unless s divides x-1.", "quantifier": "all integers x, all s>0", "why_tests_cant": "all integers; C++ division truncates towards zero", "anchors": ["include/Cnine_base_helpers.hpp: roundup"]}
{"id": "C36", "title": "Array pool behaves as a list of lists", "statement": "After any sequence of push_back (by length, by vector), set and element append operations the pool reads back exactly the corresponding list of lists, regardless of growth; operations outside their precondition are reported.", "quantifier": "all histories", "why_tests_cant": "all histories", "anchors": ["containers/array_pool.hpp"]}
{"id": "C37", "title": "Array pool concatenation and flattening", "statement": "cat of pools reads back the concatenation of their lists; to_tensor produces a header from which each list can be recovered.", "quantifier": "all pools", "why_tests_cant": "all pools", "anchors": ["containers/array_pool.hpp: cat, to_tensor"]}
{"id": "C38", "title": "Headed lists behave as (head, list) pairs", "statement": "After any sequence of push_back(head, vector) the structure reads back the pairs; total() is the number of elements. push_back(head,set) is expected to do the same. (False for sets with more than one element.)", "quantifier": "all histories", "why_tests_cant": "all histories", "anchors": ["containers/hlists.hpp"]}
{"id": "C39", "title": "Integer pool append", "statement": "add_vec appends a list readable afterwards. (False: the first call overwrites the start offset of list 0.)", "quantifier": "all lists", "why_tests_cant": "depends on content", "anchors": ["containers/int_pool.hpp: add_vec"]}
{"id": "C40", "title": "Auto-growing array keeps its contents", "statement": "set/get/reserve/resize keep previously written values; reading beyond the end grows the array. The copy constructor is expected to copy the contents. (False.)", "quantifier": "all histories", "why_tests_cant": "all histories", "anchors": ["containers/auto_array.hpp"]}
{"id": "C41", "title": "Gather map construction keeps every edge", "statement": "Building a gather map from source/target arrays, an edge matrix or a map of lists enumerates exactly the given (target,source) pairs with multiplicity; n_in/n_out bound all indices.", "quantifier": "all edge lists", "why_tests_cant": "all edge lists", "anchors": ["hpc/GatherMapB.hpp: constructors, for_each"]}
{"id": "C42", "title": "Inverse gather map reverses every edge", "statement": "inv() enumerates exactly the reversed edges with multiplicity, swaps n_in/n_out, and inverting twice gives back the same edges. A cached inverse is not refreshed after push_back.", "quantifier": "all maps", "why_tests_cant": "all maps; staleness needs a history", "anchors": ["hpc/GatherMapB.hpp: make_inv, inv"]}
{"id": "C43", "title": "Sorting keeps edges", "statement": "sort() keeps the multiset of rows (target with ordered sources) and orders rows by non-increasing length.", "quantifier": "all maps", "why_tests_cant": "all maps", "anchors": ["hpc/GatherMapB.hpp: sort"]}
{"id": "C44", "title": "Gathering rows sums the sources; the inverse map gives the adjoint", "statement": "GatherRows adds to each target row the sum of its source rows; gathering with the inverse map is the transpose. (A weighted map is added twice: weighted and unweighted.)", "quantifier": "all maps, matrices", "why_tests_cant": "all maps", "anchors": ["hpc/GatherRows.hpp"]}
{"id": "C45", "title": "Weighted gather map keeps weights", "statement": "Edges with weights survive construction, inversion and sort. (sort converts weight bits numerically to integers and corrupts them.)", "quantifier": "all maps", "why_tests_cant": "depends on weight values", "anchors": ["hpc/WeightedGatherMapB.hpp"]}
{"id": "C46", "title": "Gather map pack offsets", "statement": "The pack's offsets are the running sums of the maps' row counts, so packed maps address disjoint consecutive row blocks; n_out is the total. (The single-map constructor sets n_out from n_in.)", "quantifier": "all packs", "why_tests_cant": "all packs", "anchors": ["hpc/GatherMapPack.hpp"]}
{"id": "C47", "title": "Sparse matrix is a finite map", "statement": "Over every history of calls operator()(i,j) returns the last accepted value set at (i,j) or 0; transp swaps indices and is an involution; the visitor lists each stored cell once, in order; dense() agrees with operator() when no negative index was stored.", "quantifier": "all histories", "why_tests_cant": "all histories", "anchors": ["matrices/SparseRmatrix.hpp"]}
{"id": "C48", "title": "Sparse matrix equality", "statement": "operator== of sparse matrices is an equivalence relation and holds only if the shapes, stored cells and values agree; matrices with the same stored cells are equal if no empty rows were created.", "quantifier": "all pairs", "why_tests_cant": "all pairs", "anchors": ["matrices/SparseRmatrix.hpp: operator=="]}
{"id": "C49", "title": "CSR conversion keeps the entries", "statement": "csrmatrix()/dense-to-CSR conversion enumerates exactly the stored entries row by row; dense -> CSR -> dense is the identity. (csrmatrix() leaves the recorded shape 0x0.)", "quantifier": "all matrices", "why_tests_cant": "all matrices", "anchors": ["matrices/CSRmatrix.hpp", "matrices/SparseRmatrix.hpp: csrmatrix"]}
{"id": "C50", "title": "CSR element lookup", "statement": "operator()(i,j) returns the entry (i,j) if stored and fails otherwise. (False: it scans twice the row length, so it can return an entry of a later row or read past the end.)", "quantifier": "all matrices", "why_tests_cant": "depends on neighbouring rows", "anchors": ["matrices/CSRmatrix.hpp: operator()(int,int)"]}
{"id": "C51", "title": "CSR transpose", "statement": "transp() enumerates exactly the transposed entries.", "quantifier": "all matrices", "why_tests_cant": "all matrices", "anchors": ["matrices/CSRmatrix.hpp: make_transp"]}
{"id": "C52", "title": "Thread group concurrency limit", "statement": "At no point of any schedule do more than maxthreads tasks run; every added task runs exactly once and the group ends only after all finish, unless a wake-up is lost.", "quantifier": "all schedules", "why_tests_cant": "schedules cannot be enumerated by tests", "anchors": ["include/ThreadGroup.hpp"]}
{"id": "C53", "title": "Thread group makes progress", "statement": "A thread waiting to add a task is eventually released once a task finishes. (False: the counter update is not made under the mutex, so the notification can fall between the waiter's check and its sleep; all tasks then finish and the waiter sleeps for ever.)", "quantifier": "all schedules", "why_tests_cant": "needs one precise interleaving", "anchors": ["include/ThreadGroup.hpp: add, done"]}
{"id": "C54", "title": "Multi-threaded loop runs each index once", "statement": "MultiLoop(n,lambda) runs lambda(i) exactly once for every i<n, in any schedule.", "quantifier": "all n, thread counts, schedules", "why_tests_cant": "schedules", "anchors": ["include/MultiLoop.hpp"]}
{"id": "C55", "title": "Cell visitor gives each callback its own cells", "statement": "for_each_cell_multi hands each (batch, cell) callback the views of that batch and cell. (False with several threads: the views are shared between threads and re-pointed concurrently.)", "quantifier": "all schedules", "why_tests_cant": "data race", "anchors": ["tensors/functions/ForEachCellMulti.hpp"]}
{"id": "C56", "title": "Bidirectional map stays a bijection", "statement": "After any history of insert/erase/erase_backward, forward and backward lookups are inverse. (False when a value is re-inserted under a new key; re-inserting a key with a new value uses an invalidated iterator.)", "quantifier": "all histories", "why_tests_cant": "all histories", "anchors": ["containers/bidirectional_map.hpp"]}
{"id": "C57", "title": "Object banks create each object once", "statement": "operator() creates the object at most once per key and always returns the same object until the key dies or is erased.", "quantifier": "all histories", "why_tests_cant": "all histories", "anchors": ["containers/object_bank.hpp", "containers/ptr_indexed_object_bank.hpp", "utility/once.hpp"]}
{"id": "C58", "title": "Observer links are symmetric", "statement": "After any history of add/remove/destruction an observer lists a target exactly when the target lists the observer, and no destroyed object is referenced.", "quantifier": "all histories", "why_tests_cant": "all histories", "anchors": ["utility/observable.hpp"]}
{"id": "C59", "title": "Indexed map keeps order and lookup consistent", "statement": "After inserts with distinct keys the vector and the key lookup agree; a duplicate key leaves an unreachable entry; reading an absent key inserts a null entry.", "quantifier": "all histories", "why_tests_cant": "all histories", "anchors": ["containers/indexed_map.hpp"]}
{"id": "C60", "title": "Map of maps is a finite partial function on pairs", "statement": "get returns the last set value; size counts the stored pairs; equality is mutual inclusion.", "quantifier": "all histories", "why_tests_cant": "all histories", "anchors": ["containers/map_of_maps.hpp"]}
{"id": "C61", "title": "Prime table", "statement": "After extend(n) the table holds exactly the primes up to the limit, increasing, whatever extensions were made before.", "quantifier": "all n, histories", "why_tests_cant": "all n", "anchors": ["math/Primes.hpp"]}
{"id": "C62", "title": "Factorial table", "statement": "The memoised factorial returns k! for every k whose factorial fits the result type, independent of the order of queries; from 13 on the 32-bit result is not k!.", "quantifier": "all k, query orders", "why_tests_cant": "all query orders", "anchors": ["math/Factorial.hpp"]}
{"id": "C63", "title": "Factored rationals multiply and divide exactly", "statement": "The value of a product/quotient of factored rationals is the product/quotient of the values; construction from n>=1 represents n; equal exponent maps represent equal values.", "quantifier": "all positive integers and operation sequences", "why_tests_cant": "all inputs", "anchors": ["math/frational.hpp"]}
{"id": "C64", "title": "Cyclic group arithmetic", "statement": "Sum, difference and negation of residues are congruent to the integer operations and stay in 0..n-1. (Difference can leave the range.)", "quantifier": "all n, residues", "why_tests_cant": "all n", "anchors": ["math/cyclic.hpp"]}
{"id": "C65", "title": "3x3 determinant", "statement": "The cofactor expansion equals the determinant and is multiplicative and alternating.", "quantifier": "all matrices", "why_tests_cant": "all matrices", "anchors": ["math/Determinant.hpp"]}
{"id": "C66", "title": "Permutation objects form a group", "statement": "operator* is associative, identity is neutral, inv gives the two-sided inverse, results stay permutations. operator*= is expected to agree with operator*. (It composes in the other order.)", "quantifier": "all n, permutations", "why_tests_cant": "all permutations", "anchors": ["combinatorial/cpermutation.hpp"]}
{"id": "C67", "title": "Permutation from ordering sorts", "statement": "ordering(v) is a permutation that lists v in non-decreasing order, stable for ties; reverse_ordering in non-increasing order.", "quantifier": "all vectors", "why_tests_cant": "all vectors", "anchors": ["combinatorial/cpermutation.hpp: ordering, reverse_ordering"]}
{"id": "C68", "title": "Combinations enumeration", "statement": "for_each enumerates each k-subset of {0..n-1} exactly once, in lexicographic order; getN is expected to be the binomial coefficient. (getN/operator[] are wrong for k>=3.)", "quantifier": "all n,k", "why_tests_cant": "all n,k", "anchors": ["combinatorial/CombinationsB.hpp", "combinatorial/CombinationsBank.hpp"]}
{"id": "C69", "title": "Prefix tree stores exactly the prefixes", "statement": "After adding paths, a path is found exactly when it is a prefix of an added path; maximal paths are the non-extended ones.", "quantifier": "all histories", "why_tests_cant": "all path sets", "anchors": ["combinatorial/PrefixTree.hpp"]}
{"id": "C70", "title": "Sparse graph stays symmetric", "statement": "After any sequence of set operations the edge weight is symmetric, nedges counts undirected non-loop edges, the edge visitor lists each edge once. Read-only queries are expected not to change equality (they do: they insert empty rows).", "quantifier": "all histories", "why_tests_cant": "all histories", "anchors": ["combinatorial/sparse_graph.hpp"]}
{"id": "C71", "title": "Packing a graph stays in bounds", "statement": "as_int_pool writes exactly the allocated number of words and reading back gives the graph. (With a self-loop the buffer is too small.)", "quantifier": "all graphs", "why_tests_cant": "self-loops", "anchors": ["combinatorial/sparse_graph.hpp: as_int_pool"]}
{"id": "C72", "title": "Greedy spanning tree", "statement": "greedy_spanning_tree returns a tree rooted at the start vertex whose edges are graph edges and which contains exactly the reachable vertices, each once.", "quantifier": "all graphs", "why_tests_cant": "all graphs", "anchors": ["combinatorial/sparse_graph.hpp: greedy_spanning_tree"]}
{"id": "C73", "title": "Unique sorted rows", "statement": "SortRowsUnique returns the set of rows, each once, in lexicographic order.", "quantifier": "all matrices", "why_tests_cant": "all matrices", "anchors": ["algorithms/SortRowsUnique.hpp"]}
{"id": "C74", "title": "Batch and grid reconciliation", "statement": "dominant_batch returns the common batch size exactly when all batch sizes are equal or 1, and throws otherwise; dominant_gdims likewise for grids. (The three- and four-argument grid versions ignore the third operand's grid.)", "quantifier": "all batch/grid sizes", "why_tests_cant": "all combinations", "anchors": ["tensors/BGtensor_reconcilers.hpp"]}
{"id": "C75", "title": "Tensor specification round trip", "statement": "Splitting dims by labels into batch, grid and cell parts and joining again gives back dims and labels for positive batch and a grid within rank.", "quantifier": "all dims, labels", "why_tests_cant": "all ranks", "anchors": ["tensors/LtensorSpec.hpp", "tensors/DimLabels.hpp"]}
{"id": "C76", "title": "Configuration text: integers and vectors read back", "statement": "A non-negative integer vector or vector of vectors stored in the configuration object reads back equal; a string without quotes reads back equal.", "quantifier": "all vectors, strings", "why_tests_cant": "all lengths", "anchors": ["utility/JSONlike.hpp: set, get_str, get_vec, end_of_term"]}
{"id": "C77", "title": "In-place complex multiplication through split storage", "statement": "The split real/imaginary reference type multiplies like a complex number. (False: operator*= uses the already updated real part.)", "quantifier": "all complex numbers", "why_tests_cant": "wrong whenever both imaginary parts are non-zero", "anchors": ["utility/PretendComplex.hpp: operator*="]}
{"id": "C78", "title": "set_zero zeroes exactly the elements", "statement": "After set_zero() every element of the view is zero and no cell outside the view has changed. (False: only a warning for non-contiguous views; writes outside a broadcast view.)", "quantifier": "all views, memories", "why_tests_cant": "all strides", "anchors": ["tensors/TensorView.hpp:470-484 set_zero"]}
{"id": "C79", "title": "inplace_times multiplies each element once", "statement": "After inplace_times(c) each element of a view with distinct cells is its former value times c and no other cell has changed, on the contiguous and on the strided path, including rank 0.", "quantifier": "all views, memories, factors", "why_tests_cant": "all strides and ranks", "anchors": ["tensors/TensorView.hpp:486-500 inplace_times"]}
{"id": "C80", "title": "Element-wise product accumulation", "statement": "add_prod(x,y) turns every element r into r+x*y of the former elements and changes nothing else, for all strides and both internal paths, also when x or y is r itself.", "quantifier": "all shapes, strides, memories", "why_tests_cant": "all ranks and strides", "anchors": ["tensors/TensorView_cumulative_ops.inc: add_prod"]}
{"id": "C81", "title": "Sum along an axis", "statement": "add_sum(d,x) adds to every element of r the sum of x along axis d and changes nothing else; an axis beyond the rank is refused.", "quantifier": "all ranks, axes, strides", "why_tests_cant": "all ranks", "anchors": ["tensors/TensorView_cumulative_ops.inc: add_sum"]}
{"id": "C82", "title": "Broadcast along an axis", "statement": "add_broadcast(d,x) adds x at every position along axis d. (False: slice(d) selects position d of axis 0 each time.)", "quantifier": "all ranks, axes", "why_tests_cant": "all shapes", "anchors": ["tensors/TensorView_cumulative_ops.inc: add_broadcast"]}
{"id": "C83", "title": "Column operations", "statement": "add_scale_columns and relatives update r_ij from r_ij, x_ij, y_j and nothing else. (Only for row-major operands: strides are ignored.)", "quantifier": "all sizes, strides", "why_tests_cant": "all strides", "anchors": ["tensors/TensorView.hpp: add_mul_columns"]}
{"id": "C84", "title": "Column inner products accumulate", "statement": "add_column_inps_XC adds the inner product of matching columns to r. (False: it overwrites.)", "quantifier": "all sizes, strides", "why_tests_cant": "all initial values", "anchors": ["tensors/TensorView_cumulative_ops.inc: add_column_inps_XC"]}
{"id": "C85", "title": "Rectifier and its gradient", "statement": "add_ReLU adds the rectified elements of x; add_ReLU_back adds g times the slope at x. (False for strided views and for the gradient, which ignores x.)", "quantifier": "all shapes, strides, values", "why_tests_cant": "all strides", "anchors": ["tensors/TensorView_cumulative_ops.inc:304-330"]}
{"id": "C86", "title": "Gathered one-operand einsum", "statement": "add_einsum(r,x,gmap) adds to every r cell, for each edge of the map whose target is the value of the gather letter S, the sum over the summed letters of x with S replaced by the source of the edge. (operator()(x,gmap), which should allocate the result, indexes a two-element vector by 2.)", "quantifier": "all forms with S on both sides, dims, strides, maps, contents", "why_tests_cant": "all forms and all maps; the operator is broken for every input", "anchors": ["tensors/functions/Einsum1.hpp: add_einsum(r,x,arg), add_einsum(r,x,gmap,p), operator()(x,gmap)", "tensors/functions/Einsum1params.hpp: gather1"]}
{"id": "C87", "title": "Re-addressing between layouts", "statement": "offs(j,source) maps the offset of any index in the source layout to the offset of the same index in this layout. (False unless the source strides are nested in decreasing order; a zero source stride divides by zero.)", "quantifier": "all layouts of equal rank, all in-range indices", "why_tests_cant": "all ranks and extents", "anchors": ["include/GstridesB.hpp:314-323 offs(j,source)"]}
{"id": "C88", "title": "Grading a gather map keeps every edge", "statement": "grade(min_size) moves rows of equal length into fixed-k maps; the edges of the remaining map and of the fixed-k maps together are the edges before.", "quantifier": "all maps, all min_size", "why_tests_cant": "all maps", "anchors": ["hpc/GatherMapB.hpp: grade", "hpc/FixedkGatherMap.hpp"]}
{"id": "C89", "title": "SparseVec equality", "statement": "operator== of SparseVec is expected to be symmetric and to mean equal values. (False: it only checks that the left vector is contained in the right one.)", "quantifier": "all pairs", "why_tests_cant": "needs vectors one of which contains the other", "anchors": ["matrices/SparseRmatrix.hpp: SparseVec::operator=="]}
{"id": "C90", "title": "Sparse matrix constructors", "statement": "The constructor from a dense matrix stores exactly its nonzero cells; from_list is expected to build the matrix with ones at the listed positions. (False: it sizes the matrix by the largest index instead of one more, so every list containing a nonnegative index throws.)", "quantifier": "all matrices, all lists", "why_tests_cant": "all inputs", "anchors": ["matrices/SparseRmatrix.hpp: from_list, from_matrix, SparseRmatrix(TensorView)"]}
{"id": "C91", "title": "Negative indices in sparse matrices", "statement": "Indices outside the shape are expected to be rejected. (False: negative ones are accepted and dense() then writes out of bounds or into other cells.)", "quantifier": "all indices", "why_tests_cant": "no test uses negative indices", "anchors": ["matrices/SparseRmatrix.hpp: set, dense"]}
{"id": "C92", "title": "Sparse matrix equality and values", "statement": "Sparse matrices of the same shape and values are expected to be equal. (False: stored zeros and the empty rows inserted by reading row(i) of a const matrix count.)", "quantifier": "all pairs", "why_tests_cant": "depends on the history", "anchors": ["matrices/SparseRmatrix.hpp: operator==, row"]}
{"id": "C93", "title": "Shape after csrmatrix()", "statement": "The result of csrmatrix() is expected to be usable: convertible to dense and transposable. (False: the shape is recorded as 0x0, so both go out of bounds whenever there is an entry.)", "quantifier": "all matrices", "why_tests_cant": "undefined behaviour may look right", "anchors": ["matrices/SparseRmatrix.hpp: csrmatrix"]}
{"id": "C94", "title": "Cached CSR transpose", "statement": "transp() is expected to return the transpose of the current matrix. (False: the cached transpose is not invalidated by set_at.)", "quantifier": "all histories", "why_tests_cant": "needs a change between two calls", "anchors": ["matrices/CSRmatrix.hpp: transp"]}
{"id": "C95", "title": "CSR push_back", "statement": "push_back(ix,v) is expected to append a row with columns ix and values v. (False: columns are stored as floating point values and read back as integers.)", "quantifier": "all rows", "why_tests_cant": "column 0 works", "anchors": ["matrices/CSRmatrix.hpp: push_back"]}
{"id": "C96", "title": "CSR set_at", "statement": "set_at(i,k,j,v) replaces the k-th entry of row i by (j,v) and leaves all other entries, and the shape, as they are.", "quantifier": "all matrices, all i, k, j, v", "why_tests_cant": "all layouts", "anchors": ["matrices/CSRmatrix.hpp: set_at"]}
{"id": "C97", "title": "Nested parallel loops stay within the thread budget", "statement": "When MultiLoops are nested, a thread whose nthreads is T never causes more than max(T,1) innermost rounds to be active at once, whatever the numbers of rounds.", "quantifier": "all nesting depths, loop sizes, T", "why_tests_cant": "depends on the interplay of integer division and concurrency limits over all depths", "anchors": ["include/MultiLoop.hpp:28-39", "include/ThreadGroup.hpp:68"]}
{"id": "C98", "title": "Small thread groups always finish", "statement": "If no more tasks are added than maxthreads, no thread ever waits, and every schedule ends with the destructor returning after each task ran exactly once.", "quantifier": "all schedules, task lists with at most maxthreads tasks", "why_tests_cant": "schedules cannot be enumerated by tests", "anchors": ["include/ThreadGroup.hpp"]}
{"id": "C99", "title": "Cell visitor calls back once per batch and cell; sequentially with the right cells", "statement": "for_each_cell_multi makes exactly one callback per (batch, cell) in every schedule; run sequentially it hands each callback the addresses of its own batch and cell, in order.", "quantifier": "all batch and cell counts, operands, schedules", "why_tests_cant": "schedules, unbounded sizes", "anchors": ["tensors/functions/ForEachCellMulti.hpp:28-120"]}
{"id": "C100", "title": "Exact behaviour of bidirectional insertion", "statement": "From a state with inverse lookups, insert(k,v) is undefined exactly if k is bound to a value other than v; otherwise forward(k)=v, other keys are unchanged, and the lookups stay inverse exactly if v was not bound to another key.", "quantifier": "all consistent maps, keys, values", "why_tests_cant": "The undefined case is an invalidated iterator, which usually works by accident.", "anchors": ["containers/bidirectional_map.hpp: insert"]}
{"id": "C101", "title": "Copying an owning indexed map", "statement": "The copy of an indexed_mapB has new objects equal to the originals in the same order, filed under their own keys; the original and its objects are untouched and no object is shared.", "quantifier": "all maps whose objects are alive", "why_tests_cant": "Sharing shows up only at destruction.", "anchors": ["containers/indexed_map.hpp: indexed_mapB copy constructor"]}
{"id": "C102", "title": "Hash of a map of maps agrees with equality", "statement": "Equal map_of_maps have equal hashes. (False: the hash depends on the iteration order; equal iteration gives equal hashes.)", "quantifier": "all maps", "why_tests_cant": "Small maps often iterate in the same order.", "anchors": ["containers/map_of_maps.hpp: hash"]}
{"id": "C103", "title": "Map of lists", "statement": "After any pushes each key's list holds its items in order, total counts the pushes, for_each visits each item once, max_size is the longest length, str writes every list; str of a map with an empty list (as made by m[k]) is undefined.", "quantifier": "all push histories", "why_tests_cant": "The unsigned wrap-around needs an empty list.", "anchors": ["containers/map_of_lists.hpp"]}
{"id": "C104", "title": "Multivector rows", "statement": "Pushing rows of k>=1 entries into an empty multivector or one made with k never throws, size counts the rows, [i] returns row i; rows of another length are refused; rows without entries are not counted.", "quantifier": "all row sequences", "why_tests_cant": "All lengths and orders of calls.", "anchors": ["containers/multivec.hpp"]}
{"id": "C105", "title": "Misuse of owning indexed maps is harmless", "statement": "Self-assignment keeps the map, inserting a pointer twice is safe, and copies keep the keys used at insertion. (All three are false.)", "quantifier": "all maps", "why_tests_cant": "Double deletion shows only at destruction.", "anchors": ["containers/indexed_map.hpp: operator=, wipe, insert"]}
{"id": "C106", "title": "Copied observers and assigned targets keep the links", "statement": "Copying an observer or assigning one observable to another keeps the links symmetric and destruction safe. (False: both operations are generated by the compiler; the copy dangles, the assigned target signals in the name of the other.)", "quantifier": "all histories with copies", "why_tests_cant": "The failure appears only when the objects are destroyed.", "anchors": ["utility/observable.hpp"]}
{"id": "C107", "title": "Plain object bank", "statement": "If the maker never returns null, equal keys get the same object and the maker is called once per different key; with the default maker the first lookup dereferences null.", "quantifier": "all sequences of lookups, all makers", "why_tests_cant": "All key sequences and stateful makers.", "anchors": ["containers/object_bank.hpp"]}
{"id": "C108", "title": "Objects made once", "statement": "once returns the object of a single maker call for any number of calls; oncep keeps the first non-null object and throws while the maker returns null.", "quantifier": "all makers and call counts", "why_tests_cant": "All call sequences.", "anchors": ["utility/once.hpp"]}
{"id": "C109", "title": "Numerator and denominator tests of factored rationals", "statement": "p_not_one holds exactly if the reduced numerator of the value is not 1, q_not_one exactly if its reduced denominator is not 1.", "quantifier": "all factored rationals", "why_tests_cant": "all exponent maps", "anchors": ["math/frational.hpp"]}
{"id": "C110", "title": "Factored rationals of zero and of negative integers", "statement": "frational(x) represents x also for x<=0. (It does not: zero gives 1 or never ends, negative integers lose their sign, depending on the extent of the prime table.)", "quantifier": "x<=0", "why_tests_cant": "needs a non-terminating run", "anchors": ["math/frational.hpp"]}
{"id": "C111", "title": "Factored factorials", "statement": "The memoised factored factorial has the value x! for every x, in any order of queries and whatever the shared table of primes held.", "quantifier": "all x, query orders, prime tables", "why_tests_cant": "all query orders", "anchors": ["math/FFactorial.hpp", "math/frational.hpp", "math/Primes.hpp"]}
{"id": "C112", "title": "Squaring a permutation in place", "statement": "p*=p is expected to give the square of p. (The loop reads entries it has already replaced; only the identity survives.)", "quantifier": "all n, permutations", "why_tests_cant": "all permutations", "anchors": ["combinatorial/cpermutation.hpp: operator*="]}
{"id": "C113", "title": "Copying and assigning permutations", "statement": "A copy, and an assignment, give an equal permutation; assigning a permutation to itself is expected to leave it unchanged. (It reads freed memory's replacement before it is written.)", "quantifier": "all n, permutations", "why_tests_cant": "all permutations", "anchors": ["combinatorial/cpermutation.hpp: copy constructor, operator="]}
{"id": "C114", "title": "contiguous_cycle is a cycle", "statement": "contiguous_cycle(n,a,b) is expected to be the permutation that rotates a..b and fixes the rest. (It gives a permutation only for a=0, b=n; otherwise it writes out of range, leaves entries unwritten or stores entries that are too large.)", "quantifier": "all n, a, b with 0<=a,b<=n", "why_tests_cant": "all sizes", "anchors": ["combinatorial/cpermutation.hpp: contiguous_cycle"]}
{"id": "C115", "title": "Random permutations are uniform in the draws", "statement": "For every sequence of draws with draw i below n-i the result is a permutation, and every permutation arises from exactly one such sequence.", "quantifier": "all n, draw sequences", "why_tests_cant": "all draw sequences", "anchors": ["combinatorial/cpermutation.hpp: random"]}
{"id": "C116", "title": "Permutation queries", "statement": "is_valid decides whether an array is a permutation; inv(i) is the preimage of i and throws outside the range; == decides equality; transposition(i,j) swaps i and j; reorder lists a vector in the order of the permutation.", "quantifier": "all n, permutations, vectors", "why_tests_cant": "all permutations", "anchors": ["combinatorial/cpermutation.hpp: is_valid, inv, operator==, transposition, reorder"]}
{"id": "C117", "title": "Positions of combinations", "statement": "index(v) is the position of v in the enumeration, operator[](i) its inverse and getN() the number of combinations. (getN starts from an uninitialised number and adds the wrong field, which index and operator[] then use for k>=3.)", "quantifier": "all n, k, request histories", "why_tests_cant": "all n, k and memory contents", "anchors": ["combinatorial/CombinationsB.hpp", "combinatorial/CombinationsBank.hpp"]}
{"id": "C118", "title": "Depth first traversal with positions", "statement": "depth_first(lambda,-1) calls lambda once for each non-empty path of the tree, parents before children, with the last label of the path and the call number of the path one shorter (-1 at the top), and returns the number of calls; the labels come in the order of depth_first(lambda).", "quantifier": "all path sets", "why_tests_cant": "all trees", "anchors": ["combinatorial/PrefixTree.hpp: depth_first"]}
{"id": "C119", "title": "Printing a prefix tree", "statement": "str() prints the maximal paths. (For a tree without a non-empty path it runs over the end of an empty vector.)", "quantifier": "all path sets", "why_tests_cant": "the empty tree", "anchors": ["combinatorial/PrefixTree.hpp: str"]}
{"id": "C120", "title": "Greedy spanning tree from bad vertices", "statement": "With a root or a vertex outside the range, greedy_spanning_tree indexes its table of visited vertices out of range. (It is expected to throw; it has undefined behaviour.)", "quantifier": "all graphs, all roots out of range", "why_tests_cant": "tests use valid roots", "anchors": ["combinatorial/sparse_graph.hpp: greedy_spanning_tree"]}
{"id": "C121", "title": "Named and listed graphs", "statement": "The constructors from edge lists, and the named complete, star and cycle graphs (cycles from three vertices on) have exactly the edges their names say, every edge with weight one.", "quantifier": "all sizes, all edge lists", "why_tests_cant": "all sizes", "anchors": ["combinatorial/sparse_graph.hpp: constructors, static named graphs"]}
{"id": "C122", "title": "Short cycles and coincidences", "statement": "Cycles of length one and two are expected to be simple graphs (the one-cycle is a self-loop, which then cannot be packed; the two-cycle is a single edge). The two-vertex complete graph is a single edge.", "quantifier": "the small cases", "why_tests_cant": "corner cases", "anchors": ["combinatorial/sparse_graph.hpp: cycle, as_int_pool"]}
{"id": "C123", "title": "Graphs to and from dense matrices", "statement": "The dense form of a graph in range holds each weight, zero elsewhere; the graph of a dense tensor has the lower triangle as weights, and going back gives a symmetric tensor unchanged.", "quantifier": "all sizes, all weights", "why_tests_cant": "all matrices", "anchors": ["combinatorial/sparse_graph.hpp: constructor from TensorView, dense"]}
{"id": "C124", "title": "Inserting a graph along vertices", "statement": "Inserting a graph along a list of distinct vertices overwrites exactly the edges which are images of its edges.", "quantifier": "all graphs, all lists of distinct vertices", "why_tests_cant": "all graphs", "anchors": ["combinatorial/sparse_graph.hpp: insert"]}
{"id": "C125", "title": "Labelled trees and forests", "statement": "A tree built from paths contains exactly their prefixes; the maximal-path visitor lists exactly the paths to the leaves; the path-set test of trees and forests succeeds exactly when some rooted path has the given set of labels. (With repeated labels among siblings contains only looks below the first.)", "quantifier": "all trees, forests, labels", "why_tests_cant": "all shapes", "anchors": ["combinatorial/labeled_tree.hpp", "combinatorial/labeled_forest.hpp"]}
{"id": "C126", "title": "Positions in a depth-first traversal", "statement": "In the indexed depth-first traversal every entry but the first carries the position of its parent, which comes earlier, and the entries are the links of the tree in depth-first order.", "quantifier": "all trees", "why_tests_cant": "all shapes", "anchors": ["combinatorial/labeled_tree.hpp: indexed_depth_first_traversal"]}
{"id": "C127", "title": "Trees stored in an array", "statement": "as_int_tree succeeds for every tree; the array has, for each node, its label, number of children, parent and children; its traversal equals that of the tree. (A copy of the array loses the tree.)", "quantifier": "all trees", "why_tests_cant": "all shapes", "anchors": ["combinatorial/int_tree.hpp", "combinatorial/labeled_tree.hpp: as_int_tree"]}
{"id": "C128", "title": "Search for planted subgraphs", "statement": "For a connected pattern with at least one vertex the search ends and finds exactly the embeddings that preserve all weights between different vertices, one for each set of image vertices; the columns follow the traversal of the spanning tree.", "quantifier": "all graphs, all connected patterns, all weights", "why_tests_cant": "exponentially many embeddings", "anchors": ["combinatorial/FindPlantedSubgraphs.hpp"]}
{"id": "C129", "title": "Planted subgraphs outside the connected loop-free case", "statement": "Disconnected or empty patterns are expected to be refused, loops to be compared, and column i to be the image of vertex i. (None of this holds.)", "quantifier": "the three cases", "why_tests_cant": "tests use connected simple patterns with vertices numbered along the traversal", "anchors": ["combinatorial/FindPlantedSubgraphs.hpp"]}
{"id": "C130", "title": "Vector views: element-wise operations", "statement": "On a strided vector view whose positions are different cells, assignment, set(x), set(v), add(v), add(x), add(x,c), broadcast(v) and add_ReLU_back change entry i to exactly the stated combination of the entries i of the operands and no other cell of memory; sum() is the sum of the entries; a vector of another length is refused.", "quantifier": "for all sizes, offsets, strides and contents, including operands sharing cells at equal positions", "why_tests_cant": "The regular and strided code paths are chosen by the strides; tests use contiguous vectors", "anchors": ["tensor_views/Rtensor1_view.hpp:91-99", "tensor_views/Rtensor1_view.hpp:140-259"]}
{"id": "C131", "title": "ReLU of a vector view", "statement": "add_ReLU(x,alpha) adds x_i where x_i>0 and alpha*x_i elsewhere to entry i of the target.", "quantifier": "for all strides of source and target", "why_tests_cant": "Only fails when the strides of source and target differ", "anchors": ["tensor_views/Rtensor1_view.hpp:236-246"]}
{"id": "C132", "title": "tensor1_view::add accumulates", "statement": "tensor1_view::add(x) adds x_i to entry i of the target.", "quantifier": "for all strides", "why_tests_cant": "Contiguous vectors take the other branch", "anchors": ["tensor_views/tensor1_view.hpp:174-184"]}
{"id": "C133", "title": "Matrix views: element-wise operations", "statement": "On a strided matrix view whose positions are different cells, set(v), set(x), add(v), add(x), add(x,c) and add_outer change each entry to exactly the stated value and no other cell; other shapes are refused.", "quantifier": "for all sizes, offsets, strides and contents", "why_tests_cant": "The flat and the strided path must agree for all layouts", "anchors": ["tensor_views/Rtensor2_view.hpp:156-214", "tensor_views/Rtensor2_view.hpp:342-349"]}
{"id": "C134", "title": "Matrix views: explicit products", "statement": "add_matmul_AA, add_matmul_AT and add_matmul_TA add x*y, x*y^T and x^T*y, add_mprod_to and add_matmul_Ax_to add the matrix-vector product; sizes that do not fit are refused.", "quantifier": "for all sizes, strides and contents with the target apart from the operands", "why_tests_cant": "Index mistakes in the transposed forms are invisible on square or symmetric data", "anchors": ["tensor_views/Rtensor2_view.hpp:238-339", "tensor_views/Rtensor2_view.hpp:644-655"]}
{"id": "C135", "title": "add_mprod handles every layout", "statement": "add_mprod(x,y) adds the matrix product x*y to the target whatever the layouts of the three views are.", "quantifier": "for all layouts", "why_tests_cant": "The unhandled layouts print a line and return normally", "anchors": ["tensor_views/Rtensor2_view.hpp:220-236"]}
{"id": "C136", "title": "Sums of matrix views", "statement": "sum() is the sum of all entries, sum0_into adds the column sums, avg0_into the column averages and sum1_into (non-const) the row sums to the target; wrong lengths are refused.", "quantifier": "for all sizes, strides and contents", "why_tests_cant": "Two code paths; flat index arithmetic", "anchors": ["tensor_views/Rtensor2_view.hpp:355-422"]}
{"id": "C137", "title": "sum1_into on const views", "statement": "sum1_into on a const view adds the row sums to a vector with one entry per row.", "quantifier": "for all matrix sizes", "why_tests_cant": "Square matrices hide the wrong length check", "anchors": ["tensor_views/Rtensor2_view.hpp:424-433"]}
{"id": "C138", "title": "Views of views", "statement": "transp, slice0, slice1, diag, block, cols, rows, split0, repeat0 and repeat1 show exactly the stated cells of the view they are taken from; diag and split0 refuse sizes that do not fit.", "quantifier": "for all views and indices", "why_tests_cant": "Stride arithmetic for arbitrary layouts", "anchors": ["tensor_views/Rtensor2_view.hpp:139-150", "tensor_views/Rtensor2_view.hpp:559-641"]}
{"id": "C139", "title": "Fusing the axes of a matrix view", "statement": "fuse01 shows entry (i,j) of the matrix at position i*n1+j.", "quantifier": "for all views", "why_tests_cant": "Matrices without gaps between rows hide the missing check", "anchors": ["tensor_views/Rtensor2_view.hpp:578-580"]}
{"id": "C140", "title": "Destructive reduction", "statement": "reduce0_destructively turns row 0 into the column sums and changes no cell outside the view; the _into forms add the column (row) sums to the target.", "quantifier": "for all sizes, strides and contents", "why_tests_cant": "A logarithmic tree of overlapping additions; sizes that are no powers of two; one row", "anchors": ["tensor_views/Rtensor2_view.hpp:435-479"]}
{"id": "C141", "title": "Broadcasting by doubling", "statement": "broadcast0(x) turns every row, broadcast1(x) every column, into x and changes no cell outside the view.", "quantifier": "for all sizes and strides", "why_tests_cant": "Repeated copying from the view into itself; sizes that are no powers of two; no rows", "anchors": ["tensor_views/Rtensor2_view.hpp:485-519"]}
{"id": "C142", "title": "Scaled broadcast", "statement": "add_broadcast0(x,alpha) adds alpha*x to every row.", "quantifier": "for all alpha, sizes and strides", "why_tests_cant": "The default alpha=1 hides that the factor is ignored", "anchors": ["tensor_views/Rtensor2_view.hpp:534-553"]}
{"id": "C143", "title": "Split complex reference: other operations", "statement": "Reading, conjugation, assignment, +=, -=, /= and the binary product of the split real/imaginary reference act as on complex numbers and touch only the two cells.", "quantifier": "all complex numbers, all pairs of different cells", "why_tests_cant": "all values", "anchors": ["utility/PretendComplex.hpp: conj, operator=, operator+=, operator-=, operator/=, operator*"]}
{"id": "C144", "title": "Grid reconciliation of three and four operands", "statement": "The three- and four-argument dominant_gdims return the common grid of all operands and throw when two grids conflict.", "quantifier": "all grids", "why_tests_cant": "the third operand rarely carries the only grid in tests", "anchors": ["tensors/BGtensor_reconcilers.hpp:105-154"]}
{"id": "C145", "title": "Parts of a batched gridded tensor", "statement": "The constructors of BGtensor give the stated batch size, grid and cell dims; batch(b), cell(ix), cell(b,ix) and transp() address exactly the elements of the named batch, grid point and cell.", "quantifier": "all shapes, strides and indices", "why_tests_cant": "unboundedly many shapes", "anchors": ["tensors/BGtensor.hpp:52-103", "tensors/BGtensor.hpp:231-328"]}
{"id": "C146", "title": "Loop over cells of three tensors", "statement": "for_each_cell_multi and for_each_cell_multi_scalar call the function once per common batch and grid point, in order, with the cells (or element) of the operands there, an operand without batch or grid being repeated.", "quantifier": "all compatible shapes with the third grid absent or shared, sequential execution", "why_tests_cant": "unboundedly many shapes", "anchors": ["tensors/functions/ForEachCellMulti.hpp:70-120", "tensors/functions/ForEachCellMultiScalar.hpp:70-133"]}
{"id": "C147", "title": "Broadcast product of batched gridded tensors", "statement": "x*y for operands of which at least one has cells is a new tensor of the common batch, grid and cell shape whose elements are the products, missing batches, grids and cells being repeated; incompatible shapes throw; nothing else in memory changes.", "quantifier": "all shapes, strides and contents", "why_tests_cant": "unboundedly many shapes", "anchors": ["tensors/BGtensor_products.hpp:27-49"]}
{"id": "C148", "title": "Product of tensors without cells", "statement": "x*y for two tensors without cells is the product of their elements.", "quantifier": "all batches, grids and contents", "why_tests_cant": "prints a message and returns zeroes", "anchors": ["tensors/BGtensor_products.hpp:27-35"]}
{"id": "C149", "title": "Division of batched gridded tensors", "statement": "x/y for a divisor without cells multiplies every element of x by 1/y of its batch and grid point; a divisor with cells throws.", "quantifier": "all shapes, strides and contents", "why_tests_cant": "unboundedly many shapes", "anchors": ["tensors/BGtensor_products.hpp:84-97"]}
{"id": "C150", "title": "Matrix product of batched gridded tensors", "statement": "x.mprod(y) is the matrix product of the cells at every common batch and grid point; cells that are not matrices or whose inner sizes differ throw.", "quantifier": "all shapes, strides and contents", "why_tests_cant": "unboundedly many shapes", "anchors": ["tensors/BGtensor_products.hpp:123-137", "tensors/TensorView.hpp:561-573"]}
{"id": "C151", "title": "Gradient of the matrix product in its first operand", "statement": "xg.add_mprod_back0(rg,y) adds rg times the transpose of y in every cell.", "quantifier": "all shapes, strides and contents, equal batches and grids of xg and the product", "why_tests_cant": "unboundedly many shapes", "anchors": ["tensors/BGtensor_products.hpp:139-143"]}
{"id": "C152", "title": "Gradient of the matrix product in its second operand", "statement": "yg.add_mprod_back1(rg,x) adds the transpose of x times rg in every cell.", "quantifier": "all shapes, strides and contents", "why_tests_cant": "only visible for non-symmetric cells", "anchors": ["tensors/BGtensor_products.hpp:145-149", "tensors/BGtensorPack.hpp:367-369"]}
{"id": "C153", "title": "Constructors fill a new tensor as named", "statement": "zero, ones, sequential, gaussian, constant, identity, unit(i) with i in range, a list of values and a list of equally long rows build a fresh row-major tensor with the named contents and change no other memory; identity refuses a non-square shape and an empty list is refused.", "quantifier": "all shapes, values and memories", "why_tests_cant": "the contents of fresh memory are unpredictable in tests", "anchors": ["tensors/TensorView.hpp:144-195", "tensors/TensorView_constructors.hpp:63-246"]}
{"id": "C154", "title": "Constructors refuse ill-formed arguments", "statement": "A ragged nested list and a unit position out of range are refused, and Ltensor::ones gives ones.", "quantifier": "all arguments", "why_tests_cant": "an overrun by one cell rarely crashes", "anchors": ["tensors/TensorView_constructors.hpp:137-246", "tensors/Ltensor.hpp:204-206"]}
{"id": "C155", "title": "Stacking places tensors side by side", "statement": "stack(d,list) returns a fresh tensor of the summed size along axis d in which each operand occupies its own block in list order; an empty list, an axis out of range and operands of different shape off the axis are refused.", "quantifier": "all ranks, axes, list lengths, strides", "why_tests_cant": "blocks can be swapped or overlap only for particular size combinations", "anchors": ["tensors/TensorView_constructors.hpp:254-272", "tensors/Ltensor.hpp:821-839"]}
{"id": "C156", "title": "The other forms of stacking agree", "statement": "stack of an initializer list and of a list of references stack along the requested axis like stack of a vector.", "quantifier": "all lists and axes", "why_tests_cant": "only visible for axes other than the first", "anchors": ["tensors/TensorView_constructors.hpp:274-279", "tensors/Ltensor.hpp:841-865"]}
{"id": "C157", "title": "Configuration objects survive printing", "statement": "An object whose entries are integers, integer vectors, vectors of vectors or strings without blank, quote and closing brace, under at most 1000 distinct well-formed keys, is read back unchanged from its printed text, with the flag valid set.", "quantifier": "all dictionaries, keys and values", "why_tests_cant": "nesting, signs and commas inside strings combine", "anchors": ["utility/JSONlike.hpp:214-300"]}
{"id": "C158", "title": "Reading a text never loses or loops", "statement": "Every object is read back from its printed text, whatever its strings and however many entries, and reading any text ends.", "quantifier": "all objects and texts", "why_tests_cant": "needs unusual contents or more than a thousand entries", "anchors": ["utility/JSONlike.hpp:214-269"]}
{"id": "C159", "title": "Labelled tensors have the batch, grid and cells asked for", "statement": "A labelled tensor made with a positive batch size, grid and cell shape reports exactly these and is laid out row-major; the constructor from named arguments uses the last value of each argument in any order.", "quantifier": "all batch sizes, grids, cell shapes, argument lists", "why_tests_cant": "argument packs come in every order and repetition", "anchors": ["tensors/Ltensor.hpp:98-165", "tensors/Ltensor.hpp:406-418", "tensors/Ltensor.hpp:444-533"]}
{"id": "C160", "title": "Batches and cells exist for every labelled tensor", "statement": "A labelled tensor can be made without naming a batch, visited batch by batch and cell by cell whether or not it has a batch axis and a grid, and refuses batches outside the range.", "quantifier": "all labelled tensors", "why_tests_cant": "missing axes are the untested defaults", "anchors": ["tensors/Ltensor.hpp:129-143", "tensors/Ltensor.hpp:420-430", "tensors/Ltensor.hpp:470-499"]}
{"id": "C161", "title": "Batches and cells are the right elements", "statement": "batch(i), cell(ix), cell(b,ix) and batched_cell(ix) are views of exactly the elements at that batch and grid position, with matching labels; for_each_batch and for_each_cell visit every batch, grid position or pair once in order with its view; a wrong number of grid indices is refused.", "quantifier": "all shapes, strides, offsets, grids of any rank", "why_tests_cant": "transposed or strided tensors hide an exchanged stride", "anchors": ["tensors/Ltensor.hpp:406-499", "tensors/Ltensor.hpp:509-542", "tensors/DimLabels.hpp:50-101"]}
{"id": "C162", "title": "Fused batch-grid views list all cells", "statement": "When batch and grid axes walk in equal steps (in particular for row-major tensors with nonempty cells), batch_grid_fused_view2 and view3 have one row per batch and grid position, and row p is the cell with row-major number p.", "quantifier": "all batch and grid ranks, steps, cell shapes", "why_tests_cant": "the row count is computed from two strides only", "anchors": ["tensors/Ltensor.hpp:456-468", "tensors/Ltensor.hpp:942-979"]}
{"id": "C163", "title": "Products apply a matrix to every cell", "statement": "mult(x,y) returns a new tensor with the labels of x whose cell at every batch and grid position is the cell of x times y, provided the rows of x walk in equal steps; no other memory changes.", "quantifier": "all batch and grid ranks, cell and matrix sizes, values in a semiring", "why_tests_cant": "all cells are handled by one flattened matrix product", "anchors": ["tensors/Ltensor.hpp:1006-1015", "tensor_views/Rtensor2_view.hpp"]}
{"id": "C164", "title": "Fused views and products hold for every layout", "statement": "Fused views and mult are right for tensors whose grid or cells are transposed views, and for empty cells or matrices.", "quantifier": "all views", "why_tests_cant": "the library hands out transposed views freely", "anchors": ["tensors/Ltensor.hpp:398-400", "tensors/Ltensor.hpp:456-459", "tensors/Ltensor.hpp:1006-1015"]}
{"id": "C165", "title": "Columns, new axes and diagonals of labelled tensors", "statement": "col(i), cols(i,n), unsqueeze(d) and diag(ix) with increasing axes address exactly the elements with that last index, range of last indices, inserted index, or equal indices along ix (each once); columns out of range are refused.", "quantifier": "all ranks, strides, axes and numbers of axes", "why_tests_cant": "diagonals over three or more axes are rarely tried", "anchors": ["tensors/Ltensor.hpp:689-700", "tensors/Ltensor.hpp:726-755", "include/Cnine_base_helpers.hpp:111-131"]}
{"id": "C166", "title": "Diagonals and fused axes in any order", "statement": "diag(ix) is right for axes in any order, and fuse(ix) merges adjacent axes of a row-major tensor into one that visits the same elements.", "quantifier": "all axis lists", "why_tests_cant": "needs unsorted axes", "anchors": ["tensors/Ltensor.hpp:726-738", "tensors/Ltensor.hpp:766-778"]}
{"id": "C167", "title": "Convolution along one axis", "statement": "Convolve1D()(r,x,w) without channels sets r(i), and with a channel axis (and possibly one more axis c) adds to r(i,a,c), the sum of w(j,a,b) x(p,b,c) over b and over i+j-pad=p, where pad is half of r.dim(0)-x.dim(0)+w.dim(0)-1 rounded towards zero; nothing else changes and nothing out of range is touched.", "quantifier": "all sizes (also zero, also filters longer than the input), strides, contents and semirings", "why_tests_cant": "borders with odd and even filters and result sizes have many cases", "anchors": ["hpc/Convolve1D.hpp:27-75", "tensors/TensorView.hpp:515-535", "tensors/TensorView.hpp:561-573"]}
{"id": "C168", "title": "Batched convolutions convolve every batch", "statement": "Convolve1D on tensors with a batch axis, and convolve1d/convolve2d on tensors with a batch axis, convolve every batch.", "quantifier": "all shapes with a batch axis", "why_tests_cant": "the batched paths are not exercised", "anchors": ["hpc/Convolve1D.hpp:77-83", "hpc/Convolve1D.hpp:159-163", "hpc/Convolve2D.hpp:53-57"]}
{"id": "C169", "title": "Convolution along two axes", "statement": "Convolve2D()(r,x,w) without channels sets, with a channel axis (and possibly one more axis) adds, the sum over j0,j1,p0,p1 with i0+j0-pad0=p0 and i1+j1-pad1=p1 of the filter matrix times the input; with a batch axis it does so for every batch, in whatever order the batches are run.", "quantifier": "all sizes, strides, contents, semirings and orders of batches", "why_tests_cant": "four nested borders, and thread schedules", "anchors": ["hpc/Convolve2D.hpp:62-129"]}
{"id": "C170", "title": "The input gradient is the transpose", "statement": "When r.dim-x.dim+w.dim-1 is even along the convolved axes, Convolve1D_back0 and Convolve2D_back0 (with channels, and for two axes with batches) add to x at p the sum over i+j-pad=p of the transposed filter matrix times r; paired with x this is the pairing of the forward result with r.", "quantifier": "all sizes of even total, strides, contents, commutative semirings for the pairing", "why_tests_cant": "the reversed filter runs through memory with negative strides", "anchors": ["hpc/Convolve1D.hpp:90-108", "hpc/Convolve2D.hpp:135-154"]}
{"id": "C171", "title": "The input gradient is the transpose for every size", "statement": "Convolve1D_back0 computes the transpose of Convolve1D for every combination of sizes.", "quantifier": "all sizes", "why_tests_cant": "needs an even filter with the default padding", "anchors": ["hpc/Convolve1D.hpp:90-108", "hpc/Convolve1D.hpp:139"]}
{"id": "C172", "title": "Gradients without channels accumulate", "statement": "The backward passes of the convolutions without channels add to the gradients.", "quantifier": "all sizes and contents", "why_tests_cant": "tests start from zero gradients", "anchors": ["hpc/Convolve1D.hpp:42", "hpc/Convolve1D.hpp:96-100", "hpc/Convolve1D.hpp:118-121", "hpc/Convolve2D.hpp:81"]}
{"id": "C173", "title": "The filter gradient is the transpose", "statement": "Convolve1D_back1 and Convolve2D_back1 with channels add to w at j the sum over i+j-pad=p of r(i,a,c) x(p,b,c) over c, summed over the batches if there are any and their rounds run one at a time; paired with w this is the pairing of the forward result with r.", "quantifier": "all sizes, strides, contents and orders of batches", "why_tests_cant": "uses unsqueezed and transposed views of x and r", "anchors": ["hpc/Convolve1D.hpp:111-131", "hpc/Convolve2D.hpp:157-177"]}
{"id": "C174", "title": "convolve1d and convolve2d", "statement": "Without a batch axis, convolve1d and convolve2d return a new row-major tensor whose size along the convolved axes is x+2 pad-w+1, or x for pad=-1, filled with the convolution for that padding; nothing else changes.", "quantifier": "all sizes for which that is not negative, paddings, strides and contents", "why_tests_cant": "combinations of paddings, sizes and layouts", "anchors": ["hpc/Convolve1D.hpp:134-165", "hpc/Convolve2D.hpp:26-59"]}
{"id": "C175", "title": "2-D convolution of float views", "statement": "RtensorConvolve2d on three-axis x and r adds to r(i0,i1,a) the sum over j, b and i+j-pad=p of w(a,j0,j1,b) x(p0,p1,b), the padding being half the size difference, when the padding along the second axis is not 0, or the channels follow each other in memory and the filter fits; convolve2D of packed operands returns a new packed tensor with these sums.", "quantifier": "all sizes, paddings, layouts and contents", "why_tests_cant": "a joined inner product replaces the inner loop when the padding is 0", "anchors": ["tensor_views/functions/RtensorConvolve2d.hpp:33-65", "tensor_views/functions/RtensorConvolve2d.hpp:155-162", "tensor_views/Rtensor2_view.hpp:329-338"]}
{"id": "C176", "title": "2-D convolution of any layout", "statement": "RtensorConvolve2d on three-axis x and r adds the sums of C175 whatever the strides of x and w are and whatever the size of r.", "quantifier": "all strides and sizes", "why_tests_cant": "tests use packed tensors and even size differences", "anchors": ["tensor_views/functions/RtensorConvolve2d.hpp:49-55"]}
{"id": "C177", "title": "2-D convolution with further axes", "statement": "RtensorConvolve2d on four, five and six axes, and convolve2D of such x, add the sums of C175 for every index of the further axis, batch and block.", "quantifier": "all sizes, paddings and contents", "why_tests_cant": "the matrix product only prints a message for layouts it does not know", "anchors": ["tensor_views/functions/RtensorConvolve2d.hpp:68-146", "tensor_views/Rtensor2_view.hpp:220-236"]}
{"id": "C178", "title": "3-D convolution of float views", "statement": "RtensorConvolve3d on four-axis x and r adds the sums over three axes when the filter is as long along its second as along its third axis and the padding along the third is not 0, or it is 0, the channels follow each other and the filter fits; convolve3D of packed operands returns a new packed tensor with these sums.", "quantifier": "all such sizes, paddings, layouts and contents", "why_tests_cant": "six nested loops with bounds depending on padding and position", "anchors": ["tensor_views/functions/RtensorConvolve3d.hpp:34-71", "tensor_views/functions/RtensorConvolve3d.hpp:140-148"]}
{"id": "C179", "title": "3-D convolution with any filter shape", "statement": "RtensorConvolve3d on four-axis x and r adds the sums over all filter positions also when the second and third axis of the filter differ in length.", "quantifier": "all filter sizes with padding along the third axis", "why_tests_cant": "tests use cubic filters", "anchors": ["tensor_views/functions/RtensorConvolve3d.hpp:55"]}
{"id": "C180", "title": "3-D convolution with further axes", "statement": "RtensorConvolve3d on five and six axes, and convolve3D of such x, add the sums of C178 for every index of the further axis and batch.", "quantifier": "all sizes, paddings and contents", "why_tests_cant": "the matrix product only prints a message for layouts it does not know", "anchors": ["tensor_views/functions/RtensorConvolve3d.hpp:74-133", "tensor_views/Rtensor2_view.hpp:220-236"]}
{"id": "C181", "title": "Input gradient of the 3-D convolution", "statement": "RtensorConvolve3d_back0 on four axes adds to the gradient of x at p the sum over i+j-pad=p of w(a,j,b) r(i,a), when the sizes fit exactly, the filter is as long along its second as along its third axis, and the padding along the third axis is not the filter length minus 1 or the filter has length 1 there.", "quantifier": "all such sizes, layouts and contents", "why_tests_cant": "runs the forward pass through a reversed and transposed view of the filter", "anchors": ["tensor_views/functions/RtensorConvolve3d_back0.hpp:26-31"]}
{"id": "C182", "title": "Input gradient for every padding and with further axes", "statement": "RtensorConvolve3d_back0 adds the sums of C181 also for the largest padding, and with a further axis.", "quantifier": "all paddings and layouts", "why_tests_cant": "the reversed view has negative strides, which the joined inner product ignores", "anchors": ["tensor_views/functions/RtensorConvolve3d_back0.hpp:26-39", "tensor_views/functions/RtensorConvolve3d.hpp:48-52"]}
{"id": "C183", "title": "2-D convolution with a sparse filter", "statement": "RtensorConvolve2dSparse on three, four, five and six axes adds to r the sums of C175 for the filter whose value at (a,j0,j1,b) is the sum of the entries in row a, column (j0 J1+j1) A+b, for every index of the further axis, batch and block.", "quantifier": "all sizes, paddings, strides, contents and lists of entries in range", "why_tests_cant": "decodes filter positions from column numbers by division", "anchors": ["tensor_views/functions/RtensorConvolve2dSparse.hpp:32-130"]}
{"id": "C184", "title": "3-D convolution with a sparse filter", "statement": "RtensorConvolve3dSparse on four, five and six axes adds to r the sums over three axes for the filter whose value at (a,j0,j1,j2,b) is the sum of the entries in row a, column ((j0 J1+j1) J2+j2) A+b, for every index of the further axis and batch.", "quantifier": "all sizes, paddings, strides, contents and lists of entries in range", "why_tests_cant": "decodes filter positions from column numbers by division", "anchors": ["tensor_views/functions/RtensorConvolve3dSparse.hpp:37-128"]}
{"id": "C185", "title": "convolve2D and convolve3D with sparse filters", "statement": "They return a new packed tensor of size x+2 pad-J+1 along the convolved axes that holds the sums of C183 and C184 for that padding; nothing else changes.", "quantifier": "all sizes for which that is not negative, paddings, strides and contents", "why_tests_cant": "combinations of ranks, paddings and layouts", "anchors": ["tensor_views/functions/RtensorConvolve2dSparse.hpp:138-169", "tensor_views/functions/RtensorConvolve3dSparse.hpp:133-159"]}
{"id": "C186", "title": "Sparse filters made from dense matrices", "statement": "Converting a dense n by J0 J1 A (or J0 J1 J2 A) matrix to a CSR matrix and convolving with it gives the dense convolution with the filter held by its rows.", "quantifier": "all matrices, sizes, paddings, strides and contents", "why_tests_cant": "composes two representations", "anchors": ["matrices/CSRmatrix.hpp:109-132", "matrices/CSRmatrix.hpp:217-229", "tensor_views/functions/RtensorConvolve2dSparse.hpp:32-58", "tensor_views/functions/RtensorConvolve3dSparse.hpp:37-68"]}
{"id": "C187", "title": "co_scrunch_except pairs the right cells", "statement": "For two views of equal rank whose sizes agree apart from one axis each (neither the last), TensorView::co_scrunch_except returns two views that start with those axes and share the remaining merged sizes; for every pair of slices, the pairs of cells visited through the new views are exactly (as a multiset) those of the old ones; if the other sizes differ the call throws.", "quantifier": "every pair of well-formed views of every rank, sizes and strides below INT_MAX, every pair of non-final axes, every pair of slices", "why_tests_cant": "Merging is decided by a comparison of strides in sorted order; a wrong merge shows only for particular layouts.", "anchors": ["tensors/TensorView_reshapes.inc:142-190", "hpc/GatherSlices.hpp:63-80"]}
{"id": "C188", "title": "GatherSlices is right for every axis and layout", "statement": "GatherSlices adds, for every axis and every layout, to each slice of the target exactly its source slices, and refuses operands that do not match.", "quantifier": "every view, axis, gather map and memory", "why_tests_cant": "The wrong branches are only reached by particular strides or ranks.", "anchors": ["hpc/GatherSlices.hpp:63-234", "tensors/TensorView_reshapes.inc:142-190"]}
{"id": "C189", "title": "The plain slice gather adds the right slices", "statement": "With at most four axes, and matching other sizes, GatherSlices::gather_slices_naive adds to every slice of R (along one axis) the sum, with multiplicity, of the slices of X (along another axis) that the map assigns to it, and changes nothing else; with five or more axes it throws.", "quantifier": "every pair of views of rank 1 to 4 with any strides, every pair of axes, every gather map within range, every memory", "why_tests_cant": "Axes are permuted to the front and walked in nested loops; the claim is about all strides, axes and multiplicities at once.", "anchors": ["hpc/GatherSlices.hpp:173-234"]}
{"id": "C190", "title": "The fast slice gather adds the right slices when cells are adjacent", "statement": "When after merging at most two axes besides the gathered one are left and the last one runs through adjacent cells, the fast GatherSlices adds the same sums as the plain version and changes nothing else; in particular for tensors of any rank gathered along axis 0 whose slices are stored row-major without gaps.", "quantifier": "every pair of views meeting the condition, of any rank, every gather map within range, every memory", "why_tests_cant": "Relies on merging of axes being correct for every layout; the fast loops use raw pointers.", "anchors": ["hpc/GatherSlices.hpp:63-170"]}
{"id": "C191", "title": "A tensor made by gathering slices", "statement": "The calling operator that makes its own result throws if the map does not match the source axis; otherwise (plain version, at most four axes) it returns a new tensor with the gathered axis put in place, holding exactly the sums, and leaves all other memory as it was.", "quantifier": "every source view of rank 1 to 4, every pair of axes, gather map and memory", "why_tests_cant": "Combines insertion of the axis into the shape, zero initialisation and the gather.", "anchors": ["hpc/GatherSlices.hpp:41-56"]}
{"id": "C192", "title": "A tensor program computes its instructions in order", "statement": "Running a TensorProgram with GatherRows on an input and an output tensor (matrices whose last size is nc times that of the variables): all checks pass, every instruction adds for each pair (t,s) of its map block s of its source variable to block t of its target, one instruction after the other with temporaries starting at zero; input and output end with the final values of their variables, no other memory changes and the temporaries' memory is free again. A variable that no instruction writes keeps its value; shapes that do not fit are refused.", "quantifier": "every program (any number of variables and instructions, any maps within range, whole or divided rows), every nc, every layout of input and output, every memory", "why_tests_cant": "A fixed test covers one program; composition through temporaries, block-divided rows and strides interact.", "anchors": ["hpc/TensorProgram.hpp:85-125", "hpc/TensorProgramHelpers.hpp:53-76", "hpc/GatherRows.hpp:40-83"]}
{"id": "C193", "title": "The inverse program is the transpose", "statement": "TensorProgram::inv() of a good program is again a good program, with input and output exchanged and nc taken from the other side, and for outputs starting at zero the two runs are adjoint: sum(P(x)*y) = sum(x*inv(P)(y)) over all entries.", "quantifier": "every good program, every width factor, all matrices x and y, all layouts and memories", "why_tests_cant": "Needs reversal of the order of instructions, inversion of every map with its column counts, and exchange of variables to fit together, for all programs at once.", "anchors": ["hpc/TensorProgram.hpp:128-142", "hpc/TensorProgramHelpers.hpp:72-74", "hpc/GatherMapB.hpp:364-384"]}
{"id": "C194", "title": "Inverting a tensor program twice", "statement": "inv().inv() has the same variables, input, output and flag, and computes the same values as the program.", "quantifier": "every good program, all starting values", "why_tests_cant": "The maps are rebuilt twice in another order; only the multiset of pairs is preserved.", "anchors": ["hpc/TensorProgram.hpp:128-142"]}
{"id": "C195", "title": "A tensor program releases what it makes", "statement": "Every tensor object that a run makes with new is deleted by the end of the run.", "quantifier": "every good program and run", "why_tests_cant": "A leak of two objects (and shares of two tensors' memory) per call is invisible to tests of values.", "anchors": ["hpc/TensorProgram.hpp:106-124"]}
{"id": "C196", "title": "Sums, differences, negatives and multiples", "statement": "x+y, x-y, -x, c*x, x*c and times(c) return a new tensor of the operands' shape whose elements are the elementwise results, and change nothing else; x+y of different shapes is refused.", "quantifier": "all shapes (strides of the result below INT_MAX), all strides and overlaps of the operands, all values", "why_tests_cant": "Several internal paths (bulk, fused loops, per index) depend on strides and sizes.", "anchors": ["tensors/TensorView_functions.hpp:42-58", "tensors/TensorView_functions.hpp:75-96", "tensors/TensorView_gen_ops.inc:33-41"]}
{"id": "C197", "title": "Adding and subtracting a number", "statement": "c+x, x+c, x-c and c-x return a new tensor of the shape of x with c added to, subtracted from or diminished by every element.", "quantifier": "all shapes and strides, all values", "why_tests_cant": "The rank-0 case needs no loop and is left out by a visitor four calls down.", "anchors": ["tensors/TensorView_functions.hpp:28-40", "tensors/TensorView_functions.hpp:60-73"]}
{"id": "C198", "title": "x-y refuses different shapes", "statement": "x-y of tensors of different shapes is refused.", "quantifier": "all pairs of different shapes", "why_tests_cant": "The only check compares numbers of elements; tests use equal shapes.", "anchors": ["tensors/TensorView_functions.hpp:75-80", "tensors/TensorView_cumulative_ops.inc:133-145"]}
{"id": "C199", "title": "Matrix product as a new tensor", "statement": "x*y and mprod(x,y) of an n\u00d7k and a k\u00d7l matrix return a new n\u00d7l matrix of the sums of products, also when n, k or l is 0, and change nothing else; inner sizes that differ are refused when n and l are positive.", "quantifier": "all sizes, strides and values over a semiring", "why_tests_cant": "Empty sums and transposed operands are further cases of one formula.", "anchors": ["tensors/TensorView_functions.hpp:102-114", "tensors/TensorView.hpp:561-573", "include/Gdims.hpp:249-254"]}
{"id": "C200", "title": "Matrix products of other ranks and of doubles", "statement": "The product of a matrix and a vector is refused or computed, and the product of matrices of doubles is their matrix product.", "quantifier": "all shapes and values", "why_tests_cant": "The rank checks are compiled out; a reinterpret_cast between double and float compiles and runs silently.", "anchors": ["tensors/TensorView.hpp:561-573", "tensors/TensorView.hpp:785-786", "tensors/TensorView_functions.hpp:102-114"]}
{"id": "C201", "title": "Kronecker products of ranks 1 to 3", "statement": "kron(x,y) of equal rank 1, 2 or 3 returns a new tensor with x_i*y_j at index (i_a*d_a+j_a)_a, these being all its elements, and changes nothing else; different ranks are refused.", "quantifier": "all shapes, strides and values", "why_tests_cant": "Index arithmetic for every shape.", "anchors": ["tensors/TensorView_functions.hpp:130-135", "tensors/TensorView.hpp:594-630", "include/Gdims.hpp:509-515"]}
{"id": "C202", "title": "Kronecker products of other ranks", "statement": "kron(x,y) of equal rank 0 or above 3 is the Kronecker product or refused.", "quantifier": "all such shapes and values", "why_tests_cant": "The missing case only prints and returns zeroes.", "anchors": ["tensors/TensorView.hpp:594-630", "tensors/TensorView_functions.hpp:130-135"]}
{"id": "C203", "title": "Direct sums", "statement": "oplus(x,y) of equal positive rank returns a new tensor of the added shapes with x as the first block on the diagonal, y as the second and zeroes elsewhere, and changes nothing else; different ranks are refused.", "quantifier": "all shapes (strides of the result below INT_MAX), strides and values", "why_tests_cant": "Blocks of any rank, written through two strided views.", "anchors": ["tensors/TensorView_functions.hpp:138-145", "tensors/TensorView_subtensors.inc:59-67", "include/gvectr.hpp:131-137"]}
{"id": "C204", "title": "Smallest element as a function", "statement": "min(x) is the smallest element of x.", "quantifier": "all tensors with at least one element", "why_tests_cant": "Tests on constant tensors do not tell min from max.", "anchors": ["tensors/TensorView_functions.hpp:161-164"]}
{"id": "C205", "title": "Elementwise products", "statement": "odot(x,y) returns a new tensor with the elementwise products and changes nothing else; different shapes are refused.", "quantifier": "all shapes, strides and values", "why_tests_cant": "Six loop nests by rank, and rank 0 returns early.", "anchors": ["tensors/TensorView_gen_ops.inc:19-24", "tensors/TensorView_lambdas.inc:226-348"]}
{"id": "C206", "title": "Sums along an axis as a new tensor", "statement": "x.sum(d) returns a new tensor without axis d whose elements are the sums along it, and changes nothing else.", "quantifier": "all shapes (strides of the result below INT_MAX), every axis, all strides and values", "why_tests_cant": "Any rank and axis.", "anchors": ["tensors/TensorView_gen_ops.inc:26-30", "tensors/TensorView_cumulative_ops.inc:183-187"]}
{"id": "C207", "title": "Matrices as array pools", "statement": "to_array_pool(M) of a row-major matrix gives a pool with one list per row, holding the row; all other tensors are refused.", "quantifier": "all sizes and values", "why_tests_cant": "Two layouts must agree for every size.", "anchors": ["tensors/TensorView_functions.hpp:253-265", "containers/array_pool.hpp:83-94"]}
{"id": "C208", "title": "Identity matrices and unit vectors", "statement": "Identity(n) has ones on the diagonal and zeroes elsewhere, UnitVec(n,i) a one at i, nothing else changes, and Identity(n)*x has the entries of x.", "quantifier": "all n, i<n, all matrices x with n rows", "why_tests_cant": "All sizes.", "anchors": ["tensors/TensorView_functions.hpp:272-282", "tensors/TensorView_functions.hpp:102-114"]}
{"id": "C209", "title": "Convolutions of float views refuse sizes that do not match", "statement": "Every convolution of float views, with dense or sparse filter, throws when the number of result channels differs from the number of filters, the number of input channels from that of the filter, or the sizes of batch, block or further axes differ; convolve2D and convolve3D throw when the channel axis of the input does not match the filter, and for a filter of the wrong rank.", "quantifier": "all views of the ranks handled, whatever their contents and strides", "why_tests_cant": "each check is on another pair of axes for each rank", "anchors": ["tensor_views/functions/RtensorConvolve2d.hpp:49-187", "tensor_views/functions/RtensorConvolve3d.hpp:40-168", "tensor_views/functions/RtensorConvolve2dSparse.hpp:30-169", "tensor_views/functions/RtensorConvolve3dSparse.hpp:30-159"]}
{"id": "C210", "title": "ColumnSpace returns orthonormal columns", "statement": "For every real matrix and threshold not negative, in exact arithmetic, the constructor of ColumnSpace returns; the first ncols columns of its tensor are orthonormal, the others zero, ncols is at most the number of rows and of columns, and the view handed out is that of the first ncols columns. Tensors that are not matrices are refused.", "quantifier": "all sizes, strides, contents and thresholds", "why_tests_cant": "tests take matrices of full rank and one layout", "anchors": ["tensors/functions/ColumnSpace.hpp:29-60"]}
{"id": "C211", "title": "ColumnSpace spans the columns of its argument", "statement": "Every column of the argument is a combination of the columns returned plus an error whose length is at most the threshold (none for threshold zero), and every column returned is a combination of columns of the argument.", "quantifier": "all sizes, strides, contents and thresholds", "why_tests_cant": "depends on which columns are nearly dependent", "anchors": ["tensors/functions/ColumnSpace.hpp:34-46"]}
{"id": "C212", "title": "ColumnSpace leaves its argument unchanged", "statement": "Constructing a ColumnSpace from a matrix, taken by const reference, changes no memory except that of the new tensor.", "quantifier": "all sizes, strides, contents", "why_tests_cant": "tests look at the result only", "anchors": ["tensors/functions/ColumnSpace.hpp:35-38"]}
{"id": "C213", "title": "ColumnSpace of complex matrices", "statement": "For complex matrices the columns returned are orthonormal for the complex inner product.", "quantifier": "all complex matrices", "why_tests_cant": "real-valued test data hide a missing conjugation", "anchors": ["tensors/functions/ColumnSpace.hpp:38", "tensors/TensorView_scalar_ops.inc:75-92"]}
{"id": "C214", "title": "Complement, intersection and eigenspaces can be built", "statement": "The constructors of ComplementSpace, IntersectionSpace and SymmEigenspace return a basis of the space for all matrices.", "quantifier": "all matrices", "why_tests_cant": "template code that no test instantiates", "anchors": ["tensors/functions/ComplementSpace.hpp:30-72", "tensors/functions/IntersectionSpace.hpp:32-41", "tensors/functions/SymmEigenspace.hpp:29-38", "tensors/TensorView.hpp:210-215"]}
{"id": "C215", "title": "ConnectedComponents of a symmetric condition", "statement": "ConnectedComponents returns non-empty lists holding every node exactly once; for a symmetric condition two nodes are in the same list exactly if a path of nodes connects them.", "quantifier": "all node sets and symmetric conditions", "why_tests_cant": "exponentially many graphs, recursion that erases nodes while looping", "anchors": ["tensors/functions/BlockDiagonalize.hpp:32-81"]}
{"id": "C216", "title": "ConnectedComponents of any condition", "statement": "Nodes for which the condition holds, in either direction, are in the same list (as BlockDiagonalize, whose condition is not symmetric, relies on); each list holds the nodes to be reached from its first one.", "quantifier": "all node sets and conditions", "why_tests_cant": "symmetric test data hide the direction", "anchors": ["tensors/functions/BlockDiagonalize.hpp:63-108"]}
{"id": "C217", "title": "ScaleSomeSlices multiplies exactly the listed slices", "statement": "Every entry of a matrix or of a tensor with three axes is multiplied by the product of the coefficients listed for its slice; a slice listed twice is scaled twice, one not listed is unchanged, no other cell changes. Lists of different lengths are refused.", "quantifier": "all shapes, strides, index lists, coefficients and contents", "why_tests_cant": "index lists with repetitions and unusual strides are not enumerable", "anchors": ["tensor_views/functions/ScaleSomeSlicesFn.hpp:31-75"]}
{"id": "C218", "title": "GivensSomeSlices applies rotations to a matrix", "statement": "For indices in range and pairs of different slices the matrix becomes the product of the given plane rotations, in their order, with the matrix. Lists of different lengths or not of pairs are refused.", "quantifier": "all shapes, strides, lists of pairs and coefficients", "why_tests_cant": "sequences of overlapping pairs are unbounded", "anchors": ["tensor_views/functions/GivensSomeSlicesFn.hpp:31-59"]}
{"id": "C219", "title": "GivensSomeSlices keeps inner products", "statement": "When the squares of the two coefficients of every pair add up to one, the inner product of any two columns is the same before and after, for both overloads.", "quantifier": "all shapes, lists and contents", "why_tests_cant": "float tests only see approximate equality on samples", "anchors": ["tensor_views/functions/GivensSomeSlicesFn.hpp:31-93"]}
{"id": "C220", "title": "GivensSomeSlices can be undone", "statement": "Applying the operations in the opposite order, for a matrix with the sign of every second coefficient changed, for three axes with the same coefficients, restores the memory exactly.", "quantifier": "all shapes, lists and contents with coefficients on the unit circle", "why_tests_cant": "order of overlapping operations matters for all lists", "anchors": ["tensor_views/functions/GivensSomeSlicesFn.hpp:31-93"]}
{"id": "C221", "title": "Both overloads of GivensSomeSlices do the same", "statement": "A tensor with three axes is transformed as a matrix with the last two axes taken together.", "quantifier": "all shapes and lists", "why_tests_cant": "tests that look at one overload cannot compare the two", "anchors": ["tensor_views/functions/GivensSomeSlicesFn.hpp:49-54", "tensor_views/functions/GivensSomeSlicesFn.hpp:80-87"]}
{"id": "C222", "title": "GivensSomeSlices keeps inner products for all pairs", "statement": "Inner products are also kept when a slice is paired with itself, or the pair is refused.", "quantifier": "all lists of pairs", "why_tests_cant": "tests use different slices", "anchors": ["tensor_views/functions/GivensSomeSlicesFn.hpp:45-54"]}
{"id": "C223", "title": "Slice operations stay inside the view", "statement": "Whatever the index lists hold, no cell outside the view is changed.", "quantifier": "all index lists", "why_tests_cant": "an index just behind the view changes memory tests do not look at", "anchors": ["tensor_views/functions/ScaleSomeSlicesFn.hpp:41-45", "tensor_views/functions/GivensSomeSlicesFn.hpp:45-54"]}
{"id": "C224", "title": "Einsum strings are sorted into the right groups of axes", "statement": "For a string x,y->r, with or without stars, the functors keep one group per letter: letters of the result found in an operand with all their positions in the three parts, letters of the first operand absent from the result with their positions in both operands, letters only in the result with their positions. The conjugation flags are the exclusive or of the operand's star with the star of the result.", "quantifier": "all strings whose letters are not the placeholder x, any repetition, any stars", "why_tests_cant": "finitely many strings can be tried", "anchors": ["tensor_views/functions/RtensorEinsumFn.hpp:32-95", "tensor_views/functions/EinsumFnBase.hpp:34-118"]}
{"id": "C225", "title": "Complex einsum computes the sum of products", "statement": "With at most four shared letters, at most three copied letters, and at most two summed letters (or three when the first operand is not to be conjugated), and no letter of the second operand alone, every entry of the result gains the sum over the summed letters of the products of the operands, conjugated as written; repeated letters take diagonals; nothing else changes.", "quantifier": "all such strings, all sizes, all strides with distinct result cells apart from the operands, all contents in a commutative star ring", "why_tests_cant": "one loop nest per number of letters, 80 combinations, each with its own strides", "anchors": ["tensor_views/functions/CtensorEinsumFn.hpp:37-358"]}
{"id": "C226", "title": "Real einsum without summed letters computes the products", "statement": "When all letters of the operands are letters of the result, every entry of the result gains the product of the entries of the operands at its letters; nothing else changes.", "quantifier": "all such strings with at most three shared and three copied letters, all sizes and strides", "why_tests_cant": "one loop nest per number of letters", "anchors": ["tensor_views/functions/RtensorEinsumFn.hpp:101-278"]}
{"id": "C227", "title": "Real einsum sums over letters missing in the result", "statement": "Every entry of the result gains the sum over the letters missing in the result of the products of the operands.", "quantifier": "all strings with at most three summed letters, all sizes and strides", "why_tests_cant": "right for square matrices, which tests use", "anchors": ["tensor_views/functions/RtensorEinsumFn.hpp:169-229"]}
{"id": "C228", "title": "Complex einsum conjugates as written for three summed letters", "statement": "With three summed letters each operand is conjugated exactly when its star differs from the star of the result.", "quantifier": "all strings with three summed letters", "why_tests_cant": "only one of the sixteen combinations of summed letters and stars is wrong", "anchors": ["tensor_views/functions/CtensorEinsumFn.hpp:260-278"]}
{"id": "C229", "title": "Letters of the second operand alone are summed", "statement": "A letter that occurs only in the second operand is summed over, as a letter that occurs only in the first one is.", "quantifier": "all strings, sizes and contents", "why_tests_cant": "no error is raised", "anchors": ["tensor_views/functions/EinsumFnBase.hpp:70-75", "tensor_views/functions/RtensorEinsumFn.hpp:59-64"]}
{"id": "C230", "title": "Strings with too many letters are refused", "statement": "A string with more shared letters than the functor has loops for raises an error.", "quantifier": "all strings", "why_tests_cant": "no test uses four or five letters", "anchors": ["tensor_views/functions/RtensorEinsumFn.hpp:101-165", "tensor_views/functions/CtensorEinsumFn.hpp:37-132"]}
{"id": "C231", "title": "Malformed einsum strings are refused", "statement": "A string without comma or arrow raises an error and leaves the result as it is; a part without letters stands for a number.", "quantifier": "all strings", "why_tests_cant": "the undefined reads usually find zeros", "anchors": ["tensor_views/functions/RtensorEinsumFn.hpp:32-45", "tensor_views/functions/EinsumFnBase.hpp:35-56"]}
{"id": "C232", "title": "Any letter can be used in einsum strings", "statement": "The meaning of a string does not depend on which letters are used for the axes.", "quantifier": "all strings, including those with the letter x", "why_tests_cant": "the letter x works in the general einsum classes", "anchors": ["tensor_views/functions/RtensorEinsumFn.hpp:46-95", "tensor_views/functions/EinsumFnBase.hpp:57-118"]}
{"id": "C233", "title": "Einsum refuses sizes that do not fit", "statement": "When two axes with the same letter have different sizes, or an operand has fewer axes than letters, an error is raised.", "quantifier": "all strings and views", "why_tests_cant": "reading behind an operand is silent", "anchors": ["tensor_views/functions/RtensorEinsumFn.hpp:101-165"]}
{"id": "C234", "title": "Element-wise operations on three-axis float views", "statement": "For views of equal sizes fill, set and add of Rtensor3_view give r(i,j,k) = v, x(i,j,k), r(i,j,k)+x(i,j,k) at every position, whether they run over flat memory or over strides, and change no other cell.", "quantifier": "for all views with distinct cells and fitting sizes, all memory contents, all element types", "why_tests_cant": "Strides and sizes range over infinitely many combinations and the two code paths must agree on all of them", "anchors": ["tensor_views/Rtensor3_view.hpp:107-169"]}
{"id": "C235", "title": "Scaled addition to a three-axis view", "statement": "add(x,c) should add c times x to r. The path over flat memory ignores c, so it does so only for strided views.", "quantifier": "for all views of equal sizes, all factors and contents", "why_tests_cant": "The factor is lost only on one of two paths and only the values show it", "anchors": ["tensor_views/Rtensor3_view.hpp:107-169"]}
{"id": "C236", "title": "Sizes in element-wise operations on three-axis views", "statement": "set and add of views of different sizes should be refused or leave other cells alone. They loop over the sizes of x, so a larger x writes outside r; a smaller x updates the corner.", "quantifier": "for all smaller x and all contents; counterexample for larger x", "why_tests_cant": "Memory outside the view changes without an error", "anchors": ["tensor_views/Rtensor3_view.hpp:107-169"]}
{"id": "C237", "title": "Batched matrix products", "statement": "add_mprod(x,y) adds to every slice b of r the matrix product x times slice b of y, changes nothing else and refuses wrong sizes.", "quantifier": "for all views with fitting sizes and strides, all contents over any semiring; refusal for all other sizes", "why_tests_cant": "Sums of unbounded length over arbitrary strides", "anchors": ["tensor_views/Rtensor3_view.hpp:191-203"]}
{"id": "C238", "title": "The older batched product add_matmul_AA", "statement": "add_matmul_AA(x,y) should add x_b y to each slice of r. Its bounds are taken from the wrong axes: right for cubes, rows are left out for other sizes and products with non-square results are refused.", "quantifier": "for all cubes; refusal for all non-square results; counterexample for missing rows", "why_tests_cant": "Tests with cubes do not show it", "anchors": ["tensor_views/Rtensor3_view.hpp:171-189"]}
{"id": "C239", "title": "Sums and averages over axes of three-axis views", "statement": "sum0/1/2_into, avg0/1/2_into add to every cell of a matrix view the sum or average along the axis; sum01_into and avg01_into add the sum over two axes to a vector view; nothing else changes and wrong sizes are refused.", "quantifier": "for all views with fitting sizes and strides, all contents, all commutative sums and all divisions", "why_tests_cant": "Sums of unbounded length over arbitrary strides", "anchors": ["tensor_views/Rtensor3_view.hpp:227-331"]}
{"id": "C240", "title": "Reductions in place of three-axis views", "statement": "reduceN_destructively should leave in slice 0 the sum over the axis and reduceN_destructively_into should add it to r. This holds for regular views with at least two slices; a single slice is doubled and views that are not regular are refused along axes 0 and 2.", "quantifier": "for all regular views with two or more slices, strided views along axis 1, all contents; the failure for all single slices", "why_tests_cant": "The tree of halvings runs to unbounded depth", "anchors": ["tensor_views/Rtensor3_view.hpp:337-395"]}
{"id": "C241", "title": "Broadcasts into three-axis views", "statement": "broadcastN(x) should repeat the matrix x along axis N. This holds for sources whose rows lie close; a transposed source is read in the wrong order or outside its memory, and slices without rows are written to.", "quantifier": "for all regular views and close sources (axis 1: all strides), all contents; counterexamples otherwise", "why_tests_cant": "Doubling copies of unbounded number; the wrong order shows only for some strides", "anchors": ["tensor_views/Rtensor3_view.hpp:401-418"]}
{"id": "C242", "title": "Views of three-axis views", "statement": "Slices, transpose, diagonals, fused axes, blocks, splits and repeats show the stated cells of the original view and have the stated sizes; diagonals, fusions and splits that do not exist are refused.", "quantifier": "for all views, all indices", "why_tests_cant": "All strides and sizes", "anchors": ["tensor_views/Rtensor3_view.hpp:424-535"]}
{"id": "C243", "title": "An accepted einsum string can be recovered from its form", "statement": "EinsumForm(str) succeeds only on strings with an arrow and readable operands; unpacking the index tuple of each operand and looking the numbers up in tokens gives the tokens of that operand in order, tokens are distinct and a tuple has no repeated number. It never has undefined behaviour, and throws exactly when the string cannot be read or a convolution token does not occur three times.", "quantifier": "all strings", "why_tests_cant": "Tests only try a few strings; tokens in brackets, repeated letters and malformed strings interact.", "anchors": ["einsum/EinsumForm.hpp:42-67", "einsum/EinsumForm.hpp:129-162", "einsum/EinsumHelpers.hpp:41-51"]}
{"id": "C244", "title": "Every token of an einsum string is classified by where it occurs", "statement": "contraction_indices are exactly the tokens in two or more operands and not in the result; convolution_indices the two-letter tokens beginning with c in the result and two operands; transfer_indices list every place of every other token in the result and an operand; summations[j] lists the places of the tokens occurring in operand j only.", "quantifier": "all strings that are accepted", "why_tests_cant": "The classes depend on all operands together; no finite set of strings covers all patterns.", "anchors": ["einsum/EinsumForm.hpp:69-109"]}
{"id": "C245", "title": "The operands are the parts between commas", "statement": "EinsumForm has one operand for every part of the left side between commas.", "quantifier": "all strings that are accepted", "why_tests_cant": "An empty part is a scalar operand and easily forgotten in tests.", "anchors": ["einsum/EinsumForm.hpp:50-57"]}
{"id": "C246", "title": "A contraction tree computes the contraction, for any order", "statement": "For every tree listed by ContractionTrees, the nodes left open at the end together have the value of the sum over all contraction indices of the product of all operands, and contain no contraction index, for every number of operands, every order of contraction, any lengths of axes, any values in a commutative semiring, and wherever the nodes lie in memory.", "quantifier": "all accepted strings, orders, operand values, axis lengths and node addresses", "why_tests_cant": "The order in which nodes are visited depends on memory addresses, and the number of orders grows as a factorial.", "anchors": ["einsum/ContractionTree.hpp:32-36", "einsum/ContractionTree.hpp:62-79", "einsum/ContractionTrees.hpp:35-62"]}
{"id": "C247", "title": "The root of a contraction tree stands for the whole contraction", "statement": "The root of every listed tree has the value of the whole contraction and does not depend on the order among trees considered equal.", "quantifier": "all accepted strings, operand values and axis lengths", "why_tests_cant": "Only strings whose operands fall apart into several groups show the fault.", "anchors": ["einsum/ContractionTrees.hpp:45-62", "einsum/ContractionTree.hpp:92-97"]}
{"id": "C248", "title": "Indices and level of a contraction node", "statement": "A contraction node has the indices of its children except the contracted one, each once; external indices are those of all children, internal ones the others; its level is one more than the highest level of a child.", "quantifier": "all lists of children", "why_tests_cant": "Children may share any subset of indices.", "anchors": ["einsum/ContractionNode.hpp:35-55"]}
{"id": "C249", "title": "All orders of contraction are listed, without repetition", "statement": "Every order of the contraction indices has a tree with the same levels in the list, every tree of the list comes from an order, no two trees of the list have the same levels, and every contraction index is at exactly one level of each tree.", "quantifier": "all accepted strings and node addresses", "why_tests_cant": "The recursion goes over all permutations.", "anchors": ["einsum/ContractionTrees.hpp:45-62", "einsum/ContractionTree.hpp:42-50"]}
{"id": "C250", "title": "Trees with the same levels are the same tree", "statement": "Two orders of contraction whose trees have the same sets of indices at every level give the same nodes up to the order of children and of indices, even if nodes lie elsewhere in memory; so dropping one of them loses nothing.", "quantifier": "all accepted strings, pairs of orders and node addresses", "why_tests_cant": "That levels alone determine the tree is a global fact about contraction orders, not visible on samples.", "anchors": ["einsum/ContractionTree.hpp:42-50", "einsum/ContractionTrees.hpp:47-50"]}
{"id": "C251", "title": "Operand nodes carry the number and letter of their operand", "statement": "In a new tree the node of operand i has arg_id i and the i-th capital letter as its name.", "quantifier": "all lists of operands", "why_tests_cant": "The number is read after it was increased, and the two arguments of the string constructor are swapped; neither shows in results.", "anchors": ["einsum/ContractionTree.hpp:32-36"]}
{"id": "C252", "title": "The order of index tuples is a strict total order", "statement": "ix_tuple::operator< compares lengths and then entries; it is irreflexive, transitive and orders any two different tuples one way.", "quantifier": "all tuples", "why_tests_cant": "Sets and maps keyed by tuples are only correct if the comparison is a strict total order on all tuples.", "anchors": ["einsum/EinsumHelpers.hpp:53-62"]}
{"id": "C253", "title": "Entries of complex views", "statement": "Reading, setting and increasing an entry of a complex view with one to four axes acts on exactly that entry, both parts, and changes no other cell.", "quantifier": "all views whose entries lie in different cells, all contents and indices in range", "why_tests_cant": "Sizes, strides and the layout of the two parts are unbounded; writing one part to a neighbour only shows for some layouts.", "anchors": ["tensor_views/Ctensor1_view.hpp:71-86", "tensor_views/Ctensor2_view.hpp:110-125", "tensor_views/Ctensor3_view.hpp:111-126", "tensor_views/Ctensor4_view.hpp:89-104"]}
{"id": "C254", "title": "Sums and copies of complex vectors", "statement": "Adding a complex vector view, adding a complex multiple of one, and assigning one are exact entry by entry, also when both views are the same memory; different sizes are refused.", "quantifier": "all pairs of views, layouts and contents", "why_tests_cant": "Aliasing of argument and result depends on strides.", "anchors": ["tensor_views/Ctensor1_view.hpp:92-114"]}
{"id": "C255", "title": "Sums of complex matrices", "statement": "Adding a complex matrix view is exact entry by entry, on the fast path for regular views and on the loop; different sizes are refused.", "quantifier": "all pairs of views, layouts and contents", "why_tests_cant": "The fast path adds raw floats and is right only for one layout; all others must take the loop.", "anchors": ["tensor_views/Ctensor2_view.hpp:127-151"]}
{"id": "C256", "title": "Products of complex matrices", "statement": "add_matmul_AA, _AH, _HA and _NA add the product, with the conjugate transpose where named, and change nothing else; over the real numbers the result is the product of complex matrices.", "quantifier": "all sizes that fit, layouts and contents apart from the result", "why_tests_cant": "The sums have unbounded length and the conjugation touches the imaginary part only.", "anchors": ["tensor_views/Ctensor2_view.hpp:154-171", "tensor_views/Ctensor2_view.hpp:193-210", "tensor_views/Ctensor2_view.hpp:227-244", "tensor_views/Ctensor2_view.hpp:261-279"]}
{"id": "C257", "title": "Sizes of factors are checked", "statement": "A complex matrix product with factors of sizes that do not fit is refused.", "quantifier": "all views", "why_tests_cant": "The missing check reads cells that belong to something else.", "anchors": ["tensor_views/Ctensor2_view.hpp:158-171", "tensor_views/Ctensor2_view.hpp:193-210", "tensor_views/Ctensor2_view.hpp:227-244", "tensor_views/Ctensor2_view.hpp:261-279"]}
{"id": "C258", "title": "Slices, transposes, splits and new axes of complex views", "statement": "Slices of views with two to four axes, transposes, split0 and unsqueeze0/1/2 (of vectors, and 0 and 2 of matrices) hold the entries their names say; split0 refuses sizes that do not fit.", "quantifier": "all views and contents", "why_tests_cant": "Strides are arbitrary.", "anchors": ["tensor_views/Ctensor2_view.hpp:329-335", "tensor_views/Ctensor2_view.hpp:344-346", "tensor_views/Ctensor2_view.hpp:380-392", "tensor_views/Ctensor3_view.hpp:280-290", "tensor_views/Ctensor3_view.hpp:345-347", "tensor_views/Ctensor3_view.hpp:353-355", "tensor_views/Ctensor4_view.hpp:172-186"]}
{"id": "C259", "title": "Fused axes list all entries", "statement": "Fusing two neighbouring axes gives a view of the same entries in order.", "quantifier": "all views", "why_tests_cant": "The result depends on strides that are not checked.", "anchors": ["tensor_views/Ctensor2_view.hpp:337-339", "tensor_views/Ctensor3_view.hpp:292-298", "tensor_views/Ctensor4_view.hpp:188-198"]}
{"id": "C260", "title": "A new middle axis keeps the entries", "statement": "unsqueeze1 of a complex matrix view holds the same entries with a new axis of size one in the middle.", "quantifier": "all views", "why_tests_cant": "The stride of the first axis only shows from the second row on.", "anchors": ["tensor_views/Ctensor3_view.hpp:349-351"]}
{"id": "C261", "title": "Sums of complex views with three axes", "statement": "Adding a complex view with three axes of the same sizes is exact entry by entry, on the fast path and on the loop.", "quantifier": "all pairs of views, layouts and contents", "why_tests_cant": "The fast path treats the view as raw floats.", "anchors": ["tensor_views/Ctensor3_view.hpp:128-134", "tensor_views/Ctensor3_view.hpp:152-166"]}
{"id": "C262", "title": "Sums of three axes check sizes", "statement": "Adding a complex view with three axes of other sizes is refused.", "quantifier": "all pairs of views", "why_tests_cant": "The size that is not compared matters only when the other two agree.", "anchors": ["tensor_views/Ctensor3_view.hpp:152-166"]}
{"id": "C263", "title": "Mixing the middle axis", "statement": "add_mix_1_0 and add_mix_1_H add the contraction of the middle axis with a matrix or its conjugate transpose, change nothing else, and refuse sizes that do not fit.", "quantifier": "all views, layouts and contents apart from the result", "why_tests_cant": "The sums have unbounded length.", "anchors": ["tensor_views/Ctensor3_view.hpp:170-188", "tensor_views/Ctensor3_view.hpp:215-233"]}
{"id": "C264", "title": "Mixing the last axis", "statement": "add_mix_2_0 and add_mix_2_H add the contraction of the last axis with a matrix or its conjugate transpose and change nothing else, when the first two axes can be fused.", "quantifier": "all views whose first two axes can be fused, of fitting sizes, and contents apart from the result", "why_tests_cant": "Correctness depends on a relation between strides.", "anchors": ["tensor_views/Ctensor3_view.hpp:253-259"]}
{"id": "C265", "title": "Mixing the last axis works for every layout", "statement": "add_mix_2_0 and add_mix_2_H are exact for every layout and refuse sizes that do not fit.", "quantifier": "all views", "why_tests_cant": "The layouts for which it goes wrong are slices of larger tensors.", "anchors": ["tensor_views/Ctensor3_view.hpp:253-259"]}
{"id": "C266", "title": "Mixing axes of views with four axes", "statement": "add_mix_1_0, add_mix_1_H, add_mix_3_0 and add_mix_3_H on four axes add the contraction of the named axis with a matrix or its conjugate transpose and change nothing else, when the other axes can be fused.", "quantifier": "all views whose axes can be fused, of fitting sizes, and contents apart from the result", "why_tests_cant": "Correctness depends on relations between strides.", "anchors": ["tensor_views/Ctensor4_view.hpp:125-141"]}
{"id": "C267", "title": "Contracting the middle axis adds to the target", "statement": "add_contract_aib_aib_ab_to adds the sums of products over the middle axis to the target.", "quantifier": "all views, sizes and contents apart from the target", "why_tests_cant": "Overwriting and adding agree on targets that hold zero.", "anchors": ["tensor_views/Ctensor3_view.hpp:263-274", "tensor_views/BasicCtensorProducts.hpp:105-124"]}
{"id": "C268", "title": "Expansion adds to the result", "statement": "add_expand_2 adds the products X(a,b,c) Y(b,d,c) to the result.", "quantifier": "all views, sizes and contents apart from the result", "why_tests_cant": "Overwriting and adding agree on results that hold zero.", "anchors": ["tensor_views/Ctensor4_view.hpp:145-157", "tensor_views/BasicCtensorProducts.hpp:54-73"]}
{"id": "C269", "title": "Contracting four axes adds to the target", "statement": "add_contract_abic_bic_abc_to adds the sums of products over the third axis to the target.", "quantifier": "all views, sizes and contents apart from the target", "why_tests_cant": "Overwriting and adding agree on targets that hold zero.", "anchors": ["tensor_views/Ctensor4_view.hpp:110-118", "tensor_views/Ctensor4_view.hpp:161-166"]}
{"id": "C270", "title": "Tiles of the last axis", "statement": "split2 and Ctensor4_view_t3 cut the last axis into tiles that hold the entries of the view in order; last is the size of the last tile.", "quantifier": "all views and tile sizes", "why_tests_cant": "Sizes that the tile size does not divide make the last tile reach past the view.", "anchors": ["tensor_views/Ctensor4_view.hpp:203-218"]}
{"id": "C271", "title": "Flipped views", "statement": "flip reverses the last two axes, and flipping twice gives the view back.", "quantifier": "all views, integer strides and indices in range", "why_tests_cant": "Base address and two strides change together.", "anchors": ["tensor_views/Ctensor3_view.hpp:319-326"]}
{"id": "C272", "title": "A table with two indices gives the value set last, in both directions", "statement": "After any sequence of set(i,j,v) on a double_indexed_map: is_filled(i,j) holds exactly if some value was set at (i,j); operator() returns the value set last, or a default; the row map and the column map agree, each giving the value set last; for_each visits every filled position exactly once in lexicographic order with its value; size() is the number of filled positions.", "quantifier": "for every list of settings, all indices and values", "why_tests_cant": "a test tries a few sequences; the two maps are updated separately and must stay transposes of each other after any sequence, with repeated and negative keys", "anchors": ["containers/double_indexed_map.hpp:28-29,58-101"]}
{"id": "C273", "title": "for_each_in_row lists one row and changes no value", "statement": "for_each_in_row(i) visits exactly the filled positions of row i by increasing column with their last values, and afterwards for_each, is_filled and the column map are as before.", "quantifier": "for every list of settings and every row index", "why_tests_cant": "a test looks at rows that exist; the claim is also about absent rows, for which rmap[i] inserts an empty row behind a const function", "anchors": ["containers/double_indexed_map.hpp:103-106"]}
{"id": "C274", "title": "row_offsets gives the first block of each row", "statement": "row_offsets of a block sparse matrix lists, in order of the rows present, the offset of the first block of each row.", "quantifier": "for every table of offsets", "why_tests_cant": "tests build the list right after construction; the table is mutable and may have an empty row inserted by a reading function before", "anchors": ["matrices/BlockCsparseMatrix.hpp:58-64", "containers/double_indexed_map.hpp:103-106"]}
{"id": "C275", "title": "A block sparse matrix made from a mask has one zero block per pair", "statement": "A BlockCsparseMatrix made from a mask with fcode 0 has a block at exactly the pairs of the mask; its number is the last place of the pair in the mask; each block has the given sizes, is zero, lies in the memory of the matrix, and different blocks have no common cell; no other memory changes.", "quantifier": "for all sizes, masks (with repeated pairs), and memories", "why_tests_cant": "tests use masks without repeated pairs and do not look at where the blocks lie", "anchors": ["matrices/BlockCsparseMatrix.hpp:78-92,138-153"]}
{"id": "C276", "title": "offset and block find the block or throw", "statement": "offset(i,j) returns the offset set last and throws if there is none; block(i,j) is the view of that block of size blockn by blockm, and throws if i or j is too large or the block is absent.", "quantifier": "for all tables of offsets and all indices", "why_tests_cant": "tests ask for blocks that are present", "anchors": ["matrices/BlockCsparseMatrix.hpp:138-148"]}
{"id": "C277", "title": "apply_to adds the product with the dense matrix", "statement": "If all blocks are inside the matrix, apply_to(r,x) adds to r the product of x with the dense matrix which has the blocks at their places and zero elsewhere, and changes nothing but r.", "quantifier": "for all sizes, tables, entries in any non-unital non-associative semiring, and views with any strides whose cells are distinct and apart", "why_tests_cant": "a test compares a few matrices; the claim is for all patterns of blocks, sizes and strides", "anchors": ["matrices/BlockCsparseMatrix.hpp:168-185", "tensors/TensorView_subtensors.inc:24-28", "tensors/TensorView.hpp:561-573", "tensor_views/Rtensor2_view.hpp:238-264"]}
{"id": "C278", "title": "apply_to refuses operands and blocks that do not fit", "statement": "apply_to throws if a size of r or x is wrong and does not return normally if a block lies outside the matrix.", "quantifier": "for all sizes and tables", "why_tests_cant": "tests use masks inside the matrix; nothing checks the indices of the mask against the numbers of blocks", "anchors": ["matrices/BlockCsparseMatrix.hpp:168-181", "tensors/TensorView_subtensors.inc:24-28"]}
{"id": "C279", "title": "apply_transp_to adds the product with the transposed dense matrix", "statement": "If all blocks are inside the matrix, apply_transp_to(r,x) adds to r the product of x with the transpose of the dense matrix, and changes nothing but r.", "quantifier": "for all sizes, tables, entries, and views with any strides whose cells are distinct and apart", "why_tests_cant": "as for apply_to; no test calls apply_transp_to with blocks that are not square", "anchors": ["matrices/BlockCsparseMatrix.hpp:188-205"]}
{"id": "C280", "title": "A block sparse matrix times a tensor is a new matrix with the product", "statement": "operator*(x) returns a newly allocated matrix of nblocks*blockn rows holding the product of x with the dense matrix, changes nothing else, and throws if x has the wrong number of rows.", "quantifier": "for all sizes, tables, entries and views", "why_tests_cant": "a test compares a few products", "anchors": ["matrices/BlockCsparseMatrix.hpp:159-166"]}
{"id": "C281", "title": "The product of two block sparse matrices is the product of the dense matrices", "statement": "operator*(y) of two block sparse matrices has a block at (i,k) exactly if there are blocks at (i,j) and (j,k) for some j, and as a dense matrix it is the product.", "quantifier": "for all sizes, tables and entries", "why_tests_cant": "a test may pass by accident: the result reads sizes that were never given a value", "anchors": ["matrices/BlockCsparseMatrix.hpp:208-230,73,144-148"]}
{"id": "C282", "title": "Pushes into a weighted mask", "statement": "After any pushes with nonnegative indices, Rmask1 lists for exactly the pushed rows, in increasing order of rows, what was pushed for the row in the order of the pushes; N0 and M0 are the least sizes containing all indices.", "quantifier": "all finite lists of pushes (i,j,v)", "why_tests_cant": "the lists grow by any number of pushes in any order; tests push a handful", "anchors": ["include/Rmask1.hpp:109-115"]}
{"id": "C283", "title": "The inverse of a mask is its transpose", "statement": "Whatever pushes and calls of inv() came before, inv() gives the transpose of the mask as pushed up to now: the weights listed for (j,i) are those pushed for (i,j) in the same order, its rows are ordered by index, its sizes are exchanged, and the mask itself is unchanged.", "quantifier": "all interleavings of pushes and inv()", "why_tests_cant": "a stale cached inverse shows up only for particular interleavings", "anchors": ["include/Rmask1.hpp:117-120", "include/Rmask1.hpp:171-180"]}
{"id": "C284", "title": "The mask of a matrix lists its nonzero entries", "statement": "Rmask1::matrix(M) lists, for exactly the rows with a nonzero entry, the nonzero entries of the row in the order of the columns.", "quantifier": "all matrix views, all layouts, all contents", "why_tests_cant": "patterns of zeros are unboundedly many", "anchors": ["include/Rmask1.hpp:95-103"]}
{"id": "C285", "title": "The sizes of the mask of a matrix", "statement": "Rmask1::matrix(M) has N0 and M0 equal to the numbers of rows and columns of M.", "quantifier": "all matrix views and contents", "why_tests_cant": "the sizes agree whenever the last row and column have a nonzero entry, as in most test matrices", "anchors": ["include/Rmask1.hpp:95-103"]}
{"id": "C286", "title": "A copied or moved mask equals the original", "statement": "Copying or moving a mask preserves lists, sizes and the inverse.", "quantifier": "all masks reachable by pushes and inv()", "why_tests_cant": "the lists are copied; only code that later reads N0 or M0 sees the loss", "anchors": ["include/Rmask1.hpp:68-78"]}
{"id": "C287", "title": "Aggregation multiplies by the matrix of the mask", "statement": "Aggregator(r,x,mask) for matrices adds M\u00b7x to r, where entry (i,j) of M is the sum of the weights pushed for (i,j), and changes nothing else.", "quantifier": "all pushes within range, all layouts of r and x without overlap, all contents", "why_tests_cant": "masks with repeated pairs, empty rows and strided views combine without bound", "anchors": ["tensor_views/Aggregator.hpp:40-51"]}
{"id": "C288", "title": "Aggregation with the inverse mask multiplies by the transpose", "statement": "Aggregator(r,x,mask.inv()) adds M\u1d40\u00b7x to r whatever pushes and calls of inv() came before.", "quantifier": "all interleavings of pushes and inv(), all layouts, all contents", "why_tests_cant": "depends on the cached inverse being rebuilt for each interleaving", "anchors": ["tensor_views/Aggregator.hpp:40-51", "include/Rmask1.hpp:117-120"]}
{"id": "C289", "title": "Aggregation of tensors with three and four axes", "statement": "Aggregator for three and four axes adds, for every i, the weighted sum of the slices of x to slice i of r.", "quantifier": "all layouts whose entries lie in different cells", "why_tests_cant": "freshly allocated tensors have axes that can be fused, so tests on them pass", "anchors": ["tensor_views/Aggregator.hpp:66-73", "tensor_views/Ctensor3_view.hpp:296-298"]}
{"id": "C290", "title": "Aggregation refuses indices and shapes that do not fit", "statement": "Aggregator refuses rows of different shape and indices outside the tensors.", "quantifier": "all masks and views", "why_tests_cant": "a write outside the result lands in other live memory and nothing is reported", "anchors": ["tensor_views/Aggregator.hpp:40-51"]}
{"id": "C291", "title": "Blocks of a tensor with two sparse axes", "statement": "A SparseTensorView made from a list of pairs has, for every listed pair, a block with the dense sizes whose entry ix lies at the row-major position of ix with the number of the pair inserted at the chosen axis; the entries are zeros of the new memory, nothing else changes.", "quantifier": "all lists of pairs, all dense sizes, all places of the sparse axis, all multi-indices", "why_tests_cant": "the stride computation depends on the place of the sparse axis and on all sizes", "anchors": ["sparse/SparseTensorView.hpp:42-82", "sparse/SparseIndexer2.hpp:31-36"]}
{"id": "C292", "title": "Blocks of a tensor with two sparse axes tile its memory", "statement": "Different entries, and entries of different blocks, of a SparseTensorView lie in different cells; if no pair is repeated the blocks fill the memory of the tensor exactly.", "quantifier": "all lists of pairs, all dense sizes, all places of the sparse axis", "why_tests_cant": "an overlap shows only for particular sizes and places of the axis", "anchors": ["sparse/SparseTensorView.hpp:42-82"]}
{"id": "C293", "title": "for_each_dense_block with a multi-index visits every block once", "statement": "for_each_dense_block with a Gindex calls its lambda exactly once for each listed pair, in increasing order of pairs, with the block of the pair.", "quantifier": "all lists of pairs and sizes", "why_tests_cant": "repeated pairs and unordered lists", "anchors": ["sparse/SparseTensorView.hpp:108-111", "sparse/SparseIndexer2.hpp:63-65"]}
{"id": "C294", "title": "for_each_dense_block with two indices visits every block once", "statement": "for_each_dense_block with two indices calls its lambda once for each listed pair.", "quantifier": "all lists of pairs and sizes", "why_tests_cant": "the call compiles and returns normally; nothing happens", "anchors": ["sparse/SparseTensorView.hpp:113-116", "sparse/SparseIndexerBase.hpp:50"]}
{"id": "C295", "title": "Blocks that are not there are refused", "statement": "dense_block of a pair that is not listed, or with one or three indices, is refused or at least shares no cell with listed blocks.", "quantifier": "all index combinations", "why_tests_cant": "reads of the wrong block give plausible numbers", "anchors": ["sparse/SparseTensorView.hpp:88-102"]}
{"id": "C296", "title": "The constructor of sparse tensors refuses what does not fit", "statement": "SparseTensorView refuses pairs outside the first two sizes, places of the sparse axis behind the dense axes and tensors without dense axes.", "quantifier": "all sizes, lists and places", "why_tests_cant": "the test in the repository itself passes an index outside the sizes", "anchors": ["sparse/SparseTensorView.hpp:42-64"]}
{"id": "C297", "title": "Triangle coefficients are exact", "statement": "Whatever was asked before, DeltaFactor::squared(a,b,c) for numbers that satisfy the triangle inequalities returns (a+b-c)! (a-b+c)! (-a+b+c)! / (a+b+c+1)! as an exact fraction, also when the answer comes from the cache.", "quantifier": "For every finite sequence of triples that satisfy the triangle inequalities, of any size, and every earlier state of the table of primes.", "why_tests_cant": "The factorials quickly leave the range of machine integers, and the answers depend on three caches grown by earlier calls; tests cover a few triples in a few orders.", "anchors": ["combinatorial/DeltaFactor.hpp:53-76", "containers/object_bank.hpp:45-51", "math/FFactorial.hpp:29-44"]}
{"id": "C298", "title": "Triples outside the triangle inequalities", "statement": "For numbers that do not satisfy the triangle inequalities DeltaFactor::squared returns 0 or refuses.", "quantifier": "For every triple of integers that breaks one of the inequalities, and every state of the tables.", "why_tests_cant": "A read in front of a vector often returns some bytes without a crash.", "anchors": ["combinatorial/DeltaFactor.hpp:53-76", "math/FFactorial.hpp:33-44"]}
{"id": "C299", "title": "Entries of an owned tensor", "statement": "A Gtensor with at least one axis is made with as many cells as it has entries, stored in row-major order. Reading an entry by an index object, by an index in two parts or by one to seven numbers gives that entry; writing or adding changes that entry and no other.", "quantifier": "For every number of axes, every dims, every entry type, every index in range and every initial content of the memory.", "why_tests_cant": "A wrong stride or offset often still stays inside the array, and tests use a few dims.", "anchors": ["include/Gtensor.hpp:81-92", "include/Gtensor.hpp:126-134", "include/Gtensor.hpp:440-516", "include/Gtensor.hpp:630-839"]}
{"id": "C300", "title": "Arrays of tensors do not overlap", "statement": "An array of tensors made with array dims and inner dims puts each tensor at a multiple of 32 cells, all entries have different cells inside the allocated memory, and reading and writing an entry by array index and inner index works.", "quantifier": "For every list of array dims and inner dims (at least one axis each) and every pair of indices in range.", "why_tests_cant": "The padding depends on all inner sizes; an overlap shows only for some sizes.", "anchors": ["include/Gtensor.hpp:112-124", "include/Gtensor.hpp:166-177", "include/Gtensor.hpp:491-625"]}
{"id": "C301", "title": "Tensors without axes", "statement": "A tensor with no axes, an array of such tensors and a slice that fixes every axis hold single numbers.", "quantifier": "For every entry type.", "why_tests_cant": "The stray access is one element before a vector and rarely crashes.", "anchors": ["include/Gtensor.hpp:156-177", "include/Gtensor.hpp:851-857"]}
{"id": "C302", "title": "Copies", "statement": "The copy of a tensor or of an array of tensors, also with another entry type, has the same entries.", "quantifier": "For all dims.", "why_tests_cant": "The overflow happens only for arrays of tensors whose size is not a multiple of 32.", "anchors": ["include/Gtensor.hpp:284-299", "include/Gtensor.hpp:360-372"]}
{"id": "C303", "title": "Assignment", "statement": "After x=y the tensor x has the dims and entries of y, also when both are the same object.", "quantifier": "For all dims, all previous contents of x.", "why_tests_cant": "Use after delete often returns the old values.", "anchors": ["include/Gtensor.hpp:328-354"]}
{"id": "C304", "title": "New tensors made entry by entry", "statement": "Sums, differences, entrywise products and quotients, powers, absolute values, conjugates, real parts and multiples make a new tensor of the same dims whose entries are the operation applied to the entries.", "quantifier": "For all dims, entry types and operations.", "why_tests_cant": "Tests cover a few dims and types.", "anchors": ["include/Gtensor.hpp:892-966", "include/Gtensor.hpp:1072-1083", "include/Gtensor.hpp:1145-1161"]}
{"id": "C305", "title": "Entrywise operations on arrays of tensors", "statement": "The entrywise operations give the right entries for arrays of tensors too.", "quantifier": "For all array dims and dims.", "why_tests_cant": "Only arrays with padding show it.", "anchors": ["include/Gtensor.hpp:892-936"]}
{"id": "C306", "title": "Equality", "statement": "operator== holds exactly if dims and all entries are the same.", "quantifier": "For all pairs of tensors.", "why_tests_cant": "Tests rarely compare tensors of different shapes.", "anchors": ["include/Gtensor.hpp:884-890"]}
{"id": "C307", "title": "Changes in place", "statement": "The operations in place (+=, -=, *=, add, subtract, add_odot, multiplication and division by a number) change every entry as they should and keep the dims.", "quantifier": "For all dims and entry types.", "why_tests_cant": "Tests cover a few dims.", "anchors": ["include/Gtensor.hpp:1177-1267"]}
{"id": "C308", "title": "Norms and inner products", "statement": "norm2, inp, inpc and diff2 are the sums over all indices of the products they stand for.", "quantifier": "For all dims, over every ring.", "why_tests_cant": "Tests compare a few numbers.", "anchors": ["include/Gtensor.hpp:1085-1132"]}
{"id": "C309", "title": "Matrix products", "statement": "operator* of two matrices, or of a matrix and a vector, matmul_TA and contract_0_0 return the product (with the transpose of the first).", "quantifier": "For all sizes, over every semiring, and every content of fresh memory.", "why_tests_cant": "Index mistakes vanish for square or symmetric examples.", "anchors": ["include/Gtensor.hpp:970-1067"]}
{"id": "C310", "title": "add_matmul for any number of axes", "statement": "add_matmul(x,y) adds the contraction of the last axis of x with the first axis of y.", "quantifier": "For all lists of other axes (at least one in x) and every positive length of the contracted axis.", "why_tests_cant": "The strides used by the loops are right only because of how they follow from the shapes; tests cover a few shapes.", "anchors": ["include/Gtensor.hpp:1269-1288"]}
{"id": "C311", "title": "add_matmul of a vector", "statement": "add_matmul(x,y) adds the contraction when x is a vector too.", "quantifier": "For all lengths.", "why_tests_cant": "The stray read is one element before a vector and its value is multiplied by 0.", "anchors": ["include/Gtensor.hpp:1269-1288"]}
{"id": "C312", "title": "Backward functions of add_matmul", "statement": "add_matmul_AH(g,y) and add_matmul_HA(x,g) add the contractions of g with the conjugate of y over the axes of y, and of the conjugate of x over the axes of x, for any number of axes.", "quantifier": "For all shapes with at least one free axis in the first argument.", "why_tests_cant": "Gradients are rarely compared on shapes with several axes.", "anchors": ["include/Gtensor.hpp:1290-1330"]}
{"id": "C313", "title": "Slices", "statement": "slice(ix) is the tensor of the entries whose first indices are ix, for tensors and arrays of tensors. set_slice writes these entries and no others.", "quantifier": "For every number of fixed axes, at least one axis left.", "why_tests_cant": "Tests cover a few shapes.", "anchors": ["include/Gtensor.hpp:851-866"]}
{"id": "C314", "title": "Views with other dims", "statement": "reshape_view and flat_view show the entries in the same row-major order, writing through the view changes the entry shown, and dims with another number of entries are refused.", "quantifier": "For all pairs of dims.", "why_tests_cant": "Tests cover a few shapes.", "anchors": ["include/Gtensor.hpp:378-396"]}
{"id": "C315", "title": "Views of arrays of tensors", "statement": "flat_view of an array of tensors shows its entries in order.", "quantifier": "For all array dims and dims.", "why_tests_cant": "Only arrays with padding show it.", "anchors": ["include/Gtensor.hpp:378-396"]}
{"id": "C316", "title": "Printing", "statement": "str() lists every entry once, in row-major order.", "quantifier": "For every number of axes.", "why_tests_cant": "Nobody prints a tensor with seven axes in a test.", "anchors": ["include/Gtensor.hpp:1497-1656"]}
{"id": "C317", "title": "Fills", "statement": "fill_zero gives zeros, fill_sequential gives 0, 1, 2\u2026 in row-major order, fill_identity gives the identity matrix and accepts square matrices only.", "quantifier": "For all dims.", "why_tests_cant": "Tests cover a few sizes.", "anchors": ["include/Gtensor.hpp:195-209", "include/Gtensor.hpp:234-238"]}
{"id": "C318", "title": "ReLU", "statement": "ReLU() replaces the negative entries by 0.", "quantifier": "For all tensors.", "why_tests_cant": "It prints a message and returns a tensor with the right shape.", "anchors": ["include/Gtensor.hpp:1163-1170"]}
{"id": "C319", "title": "Sizes that do not fit are refused", "statement": "Operations on two or three tensors throw unless all have as many entries (odot and diff2: the same dims). operator* and matmul_TA throw unless the arguments are matrices (operator*: also a vector on the right) with the same length of the contracted axes, and add_matmul, add_matmul_AH and add_matmul_HA throw if these lengths differ.", "quantifier": "For all dims of all arguments, contracted axes not of length 0.", "why_tests_cant": "Tests mostly use sizes that fit.", "anchors": ["include/Gtensor.hpp:892-1067", "include/Gtensor.hpp:1102-1132", "include/Gtensor.hpp:1145-1161", "include/Gtensor.hpp:1177-1330"]}
{"id": "C320", "title": "Shared arrays are safe", "statement": "A program that makes, copies, moves along, assigns and destroys MemArr objects in any order, and reads and writes through them, reads what it would read if memory were never freed, or is undefined in both cases. So no array is used after it was freed and none is freed twice.", "quantifier": "For all programs of any length that do not wrap the pointer of another object.", "why_tests_cant": "Use after free often reads the old value; tests cover a few orders of destruction.", "anchors": ["include/MemArr.hpp:38-130", "include/MemBlob.hpp:44-125"]}
{"id": "C321", "title": "Arrays live as long as objects need them", "statement": "At every point of such a program an array made by MemArr is in memory exactly while an object that was not destroyed points into it, with the contents it should have. When all objects are destroyed all arrays are freed.", "quantifier": "For all such programs.", "why_tests_cant": "Leaks are invisible in results.", "anchors": ["include/MemArr.hpp:43-88", "include/MemBlob.hpp:54-97"]}
{"id": "C322", "title": "Wrapped arrays are never freed", "statement": "MemArr never frees an array of someone else whose pointer it wraps. The array stays in memory with the same cells until its owner frees it, and changes only by writes.", "quantifier": "For all programs, also those that wrap pointers of other objects.", "why_tests_cant": "A wrong delete of a foreign pointer crashes only on some platforms.", "anchors": ["include/MemArr.hpp:77-78", "include/MemBlob.hpp:54-67", "include/MemBlob.hpp:117-120"]}
{"id": "C323", "title": "Objects that wrap the pointer of another object stay valid", "statement": "An object that wraps the pointer of another MemArr can be used as long as it exists.", "quantifier": "For all programs.", "why_tests_cant": "The freed cells often still hold the old value.", "anchors": ["include/MemArr.hpp:77-78", "include/MemArr.hpp:102-104"]}
{"id": "C324", "title": "Offsets share the array", "statement": "The object v+i shares the array of v and is i cells further. What is written through one is read through the other, and the array stays in memory when v is destroyed.", "quantifier": "After any program, for all offsets inside of the array.", "why_tests_cant": "Tests use one offset of one array.", "anchors": ["include/MemArr.hpp:63-66", "include/MemArr.hpp:119-130"]}
{"id": "C325", "title": "Every object can be read and written", "statement": "An object made without arguments or from n elements can be written and then read at its elements.", "quantifier": "For all sizes.", "why_tests_cant": "Tests do not use objects made without arguments.", "anchors": ["include/MemArr.hpp:47-58", "include/MemBlob.hpp:72-97"]}
{"id": "C326", "title": "Guards of the memory manager nest", "statement": "When guards are destroyed in the reverse order of their making, each use sees the manager of the innermost guard and at the end the manager is the one there was before.", "quantifier": "For all nestings of blocks and all sequences of blocks.", "why_tests_cant": "Tests use one guard.", "anchors": ["include/MemoryManager.hpp:36-46"]}
{"id": "C327", "title": "Guards can be destroyed in any order", "statement": "After all guards were destroyed the manager is the one there was before the first.", "quantifier": "For all orders.", "why_tests_cant": "Guards are mostly local variables.", "anchors": ["include/MemoryManager.hpp:36-46"]}
{"id": "C328", "title": "Managers are asked for enough bytes", "statement": "A memory manager is asked for the number of bytes that the array needs.", "quantifier": "For all numbers and sizes of elements.", "why_tests_cant": "Tests do not allocate 2 GB.", "anchors": ["include/MemBlob.hpp:72-110", "include/MemoryManager.hpp:27"]}
{"id": "C329", "title": "Containers of owned objects behave like containers of values", "statement": "A program that makes, copies, moves, reads, writes, lists and destroys associative containers returns what it would return if containers held values, and ends in the same way: a copy is independent of the original, and a container moved from is empty.", "quantifier": "For all programs of any length with any number of containers, all keys and values.", "why_tests_cant": "Aliasing between a container and its copy shows up only for particular orders of writes.", "anchors": ["containers/associative_container.hpp:176-280"]}
{"id": "C330", "title": "Each object of an associative container has one owner", "statement": "At every moment the live objects are exactly those that entries of containers point to, no two entries share an object, and when all containers are destroyed no object is left.", "quantifier": "For all programs that do not insert a pointer taken from another entry.", "why_tests_cant": "A leak or a double delete is visible only in particular sequences of operations.", "anchors": ["containers/associative_container.hpp:185-264"]}
{"id": "C331", "title": "Inserting a pointer does not give an object two owners", "statement": "An object inserted by pointer is deleted once, and first() of an empty container is refused.", "quantifier": "For all containers and keys.", "why_tests_cant": "The second delete happens in a destructor and may go unnoticed.", "anchors": ["containers/associative_container.hpp:185-188", "containers/associative_container.hpp:243-254"]}
{"id": "C332", "title": "Wrappers that keep a pointer to a result", "statement": "A cachedf wrapper behaves as if it held its value; it can be copied and destroyed at any time, and each object is deleted once.", "quantifier": "For all programs with any number of wrappers and functions.", "why_tests_cant": "The failure needs a copy after the first call and shows up in a destructor.", "anchors": ["wrappers/cachedf.hpp:25-56"]}
{"id": "C333", "title": "A function is called once per wrapper", "statement": "A wrapper called again returns what it returned before, calls no function and changes nothing; a wrapper made without a function throws.", "quantifier": "For both wrappers, in all states and for all functions, which may return something else at each call.", "why_tests_cant": "Tests use functions that always return the same.", "anchors": ["wrappers/cachedf.hpp:36-54", "wrappers/cachedf.hpp:61-92"]}
{"id": "C334", "title": "Packs of objects held by value", "statement": "An index is accepted exactly if it lies between 0 and the length; zip calls its function on pairs of elements in order and throws if the lengths differ; mapcar applies its function to each element.", "quantifier": "For all packs and all integers as index.", "why_tests_cant": "Tests use a few indices.", "anchors": ["containers/object_pack.hpp:44-75"]}
{"id": "C335", "title": "Packs that share their objects", "statement": "zip applied with a function that assigns to its first argument sets each object of the first pack to the function of the two old objects; mapcar makes new objects; an index outside the pack is refused.", "quantifier": "For all packs.", "why_tests_cant": "Tests use packs with distinct objects and indices in range.", "anchors": ["containers/shared_object_pack.hpp:50-92", "containers/object_pack_s.hpp:46-79"]}
{"id": "C336", "title": "Maps with several keys", "statement": "Reading a map with two to five keys gives the value last assigned to these keys, or the default, whatever the hash functions of the keys are; the order on pairs of keys is the lexicographic order, and is irreflexive, transitive and total.", "quantifier": "For all programs of reads and writes, all key types and hash functions.", "why_tests_cant": "Collisions of the combined hash are rare in tests.", "anchors": ["containers/double_map.hpp:25-78", "containers/triple_map.hpp:25-72", "containers/quadruple_map.hpp:25-74", "containers/quintuple_map.hpp:25-76"]}
{"id": "C337", "title": "Entries of real views with four to seven axes", "statement": "get, set and inc reach exactly the addressed entry; slices along one or two axes hold the entries with these indices put back; blocks start at the given index.", "quantifier": "For all sizes, strides, indices and memories.", "why_tests_cant": "Tests use compact tensors of a few sizes.", "anchors": ["tensor_views/Rtensor4_view.hpp:73-93", "tensor_views/Rtensor4_view.hpp:188-271", "tensor_views/Rtensor5_view.hpp:76-97", "tensor_views/Rtensor5_view.hpp:205-330", "tensor_views/Rtensor6_view.hpp:78-99", "tensor_views/Rtensor7_view.hpp:76-97"]}
{"id": "C338", "title": "Entries of complex views with many axes", "statement": "get, set and inc reach the real and imaginary part of exactly the addressed entry; slices hold the entries with the index put back.", "quantifier": "For all sizes, strides, indices and memories, for real and imaginary parts in turn or in two arrays.", "why_tests_cant": "Tests use one layout.", "anchors": ["tensor_views/Ctensor5_view.hpp:85-187", "tensor_views/Ctensor6_view.hpp:87-188", "tensor_views/CtensorD_view.hpp:67-159"]}
{"id": "C339", "title": "Sixth slice of a complex view with six axes", "statement": "slice5(i) holds the entries whose last index is i.", "quantifier": "For all views and indices.", "why_tests_cant": "The imaginary parts are wrong only for i>0.", "anchors": ["tensor_views/Ctensor6_view.hpp:190-192"]}
{"id": "C340", "title": "Constructors of views from sizes and strides", "statement": "The constructors of Rtensor4/5/6_view and Ctensor5_view keep the sizes and strides given and refuse any other number of axes.", "quantifier": "For all vectors of sizes and strides.", "why_tests_cant": "A test can try only some lengths.", "anchors": ["tensor_views/Rtensor4_view.hpp:47-58", "tensor_views/Rtensor5_view.hpp:48-61", "tensor_views/Rtensor6_view.hpp:48-63", "tensor_views/Ctensor5_view.hpp:53-66"]}
{"id": "C341", "title": "Constructors of views with seven real or six complex axes", "statement": "The constructors of Rtensor7_view and Ctensor6_view keep the sizes and strides given and refuse any other number of axes.", "quantifier": "For all vectors of sizes and strides.", "why_tests_cant": "The constructors are not called by any test, and one wrong length reads past the end.", "anchors": ["tensor_views/Rtensor7_view.hpp:48-65", "tensor_views/Ctensor6_view.hpp:53-68"]}
{"id": "C342", "title": "Two axes fused in a view with many axes", "statement": "fuse01, fuse12 and so on: the entry at a*n+b of the new axis is the entry at a,b.", "quantifier": "For all views and indices.", "why_tests_cant": "Tests fuse compact tensors.", "anchors": ["tensor_views/Rtensor4_view.hpp:212-222", "tensor_views/Rtensor5_view.hpp:235-249", "tensor_views/Rtensor6_view.hpp:260-277", "tensor_views/Rtensor7_view.hpp:266-288", "tensor_views/Ctensor5_view.hpp:190-204", "tensor_views/Ctensor6_view.hpp:195-213"]}
{"id": "C343", "title": "An axis split in two", "statement": "split0(x,i,j), split1 and so on: the entry at a,b is the entry of x at a*j+b; fusing the two axes gives x back; other sizes are refused.", "quantifier": "For all views, sizes and indices.", "why_tests_cant": "Tests use few sizes and compact tensors.", "anchors": ["tensor_views/Rtensor4_view.hpp:308-321", "tensor_views/Rtensor5_view.hpp:367-385", "tensor_views/Rtensor6_view.hpp:398-421", "tensor_views/Rtensor7_view.hpp:405-433"]}
{"id": "C344", "title": "Sum of two views with four to seven axes", "statement": "add(y) adds entry by entry and changes nothing else; other sizes are refused.", "quantifier": "For all views with the same sizes, also when they share cells entry by entry.", "why_tests_cant": "Tests use compact tensors in different places.", "anchors": ["tensor_views/Rtensor4_view.hpp:99-109", "tensor_views/Rtensor5_view.hpp:102-114", "tensor_views/Rtensor6_view.hpp:105-119", "tensor_views/Rtensor7_view.hpp:103-119"]}
{"id": "C345", "title": "New tensor from a view with many axes", "statement": "gtensor() gives a tensor with the entries of the view, whatever its strides.", "quantifier": "For all views and all initial contents of the new array.", "why_tests_cant": "Tests use compact views.", "anchors": ["tensor_views/Rtensor4_view.hpp:278-286", "tensor_views/Rtensor5_view.hpp:336-345", "tensor_views/Rtensor6_view.hpp:366-376", "tensor_views/Ctensor6_view.hpp:219-229"]}
{"id": "C346", "title": "New tensor from a view with seven axes", "statement": "gtensor() of Rtensor7_view gives a tensor with the entries of the view.", "quantifier": "For all views.", "why_tests_cant": "No test calls it.", "anchors": ["tensor_views/Rtensor7_view.hpp:376-387"]}
{"id": "C347", "title": "Reductions in place with many axes", "statement": "reduce0_destructively() to reduce3_destructively() put the sums along an axis into the entries with index 0 and change only cells of the view.", "quantifier": "For all views, sizes and memories.", "why_tests_cant": "The intermediate sums depend on the number of slices.", "anchors": ["tensor_views/Rtensor3_view.hpp:353-395", "tensor_views/Rtensor4_view.hpp:136-150", "tensor_views/Rtensor5_view.hpp:141-155", "tensor_views/Rtensor6_view.hpp:146-160", "tensor_views/Rtensor7_view.hpp:146-160"]}
{"id": "C348", "title": "Reductions into another view with many axes", "statement": "reduce0_destructively_into(r) to reduce3_destructively_into(r) add the sums along an axis to r.", "quantifier": "For all views, sizes and memories.", "why_tests_cant": "The intermediate sums depend on the number of slices.", "anchors": ["tensor_views/Rtensor4_view.hpp:115-133", "tensor_views/Rtensor5_view.hpp:120-138", "tensor_views/Rtensor6_view.hpp:125-143", "tensor_views/Rtensor7_view.hpp:125-143"]}
{"id": "C349", "title": "Broadcasts with many axes", "statement": "broadcast0(x), broadcast1(x) and so on make every slice along the axis equal to x and change nothing else; other sizes are refused.", "quantifier": "For all views, sizes and memories.", "why_tests_cant": "The copies double in size, so the result depends on the number of slices.", "anchors": ["tensor_views/Rtensor4_view.hpp:156-182", "tensor_views/Rtensor5_view.hpp:161-199", "tensor_views/Rtensor6_view.hpp:166-218"]}
{"id": "C350", "title": "Slices of views of any rank", "statement": "slice0(i) to slice3(i), slice01 and slice012 of RtensorView and CtensorView hold the entries with these indices put back.", "quantifier": "For all views and indices.", "why_tests_cant": "With square matrices the slices are right.", "anchors": ["tensor_views/RtensorView.hpp:237-283", "tensor_views/CtensorView.hpp:190-216"]}
{"id": "C351", "title": "Axes fused in a view of any rank", "statement": "fuse(i), fuse01, fuse12 and fuse23 of RtensorView: the entry at a*n+b of the new axis is the entry at a,b, and the size is the product of the two.", "quantifier": "For all views and indices, also negative i.", "why_tests_cant": "With equal sizes fuse23 is right.", "anchors": ["tensor_views/RtensorView.hpp:290-318"]}
{"id": "C352", "title": "Views as matrices, vectors and stacks of matrices", "statement": "matricize(n), flatten() and fuse_all_but_last_two() keep every entry, the joined axes in row-major order.", "quantifier": "For all views.", "why_tests_cant": "Tests use compact tensors.", "anchors": ["tensor_views/RtensorView.hpp:219-231", "tensor_views/RtensorView.hpp:320-323"]}
{"id": "C353", "title": "CtensorView::set with four indices", "statement": "set(i0,i1,i2,i3,x) writes the entry i0,i1,i2,i3.", "quantifier": "For all views, indices and memories.", "why_tests_cant": "No test sets an entry this way.", "anchors": ["tensor_views/CtensorView.hpp:137-142"]}
{"id": "C354", "title": "New tensor from a complex view of any rank", "statement": "gtensor() of CtensorView and CtensorD_view gives a tensor with the entries of the view.", "quantifier": "For all views.", "why_tests_cant": "Indices are computed by dividing by strides, so only some layouts are right.", "anchors": ["tensor_views/CtensorView.hpp:232-238", "tensor_views/CtensorD_view.hpp:286-292", "include/Gindex.hpp:85-92"]}
{"id": "C355", "title": "Cells reached by TensorAccessor", "statement": "The accessor reaches the cell of the entry.", "quantifier": "For all strides and indices.", "why_tests_cant": "Offsets of more than 31 bits need large tensors.", "anchors": ["tensors/TensorAccessor.hpp:62-233"]}
{"id": "C356", "title": "Cells reached by FixedTensorAccessor", "statement": "An accessor made from a view reaches the cell of the entry, or the view is refused.", "quantifier": "For all views.", "why_tests_cant": "Tests use accessors with the strides of the view.", "anchors": ["tensors/FixedTensorAccessor.hpp:29-331"]}
{"id": "C357", "title": "Calls of batched_cmvprod", "statement": "One call for every batch b, row j and column k, in row-major order, with the blocks r[b,j], x[b,j,k] and y[b,k]; blocks hold the entries with these indices; other sizes are refused.", "quantifier": "For all sizes and strides.", "why_tests_cant": "Tests use few sizes.", "anchors": ["tensor_views/Ctensor5_view.hpp:210-232"]}
{"id": "C358", "title": "Complex views as real views", "statement": "as_real() has one more axis of size 2 that holds real and imaginary part; views with the parts in two arrays are refused.", "quantifier": "For all views and memories.", "why_tests_cant": "Tests use compact views.", "anchors": ["tensor_views/Ctensor5_view.hpp:72-75", "tensor_views/Ctensor6_view.hpp:74-77", "tensor_views/CtensorView.hpp:67-70"]}
{"id": "C359", "title": "All axes but the first joined", "statement": "fuse0X() is a matrix whose rows are the slices along the first axis, in row-major order.", "quantifier": "For all views.", "why_tests_cant": "The number of columns is computed from strides, which is right only without gaps.", "anchors": ["tensor_views/CtensorView.hpp:222-226", "tensor_views/CtensorD_view.hpp:189-193"]}
{"id": "C360", "title": "Six strides", "statement": "Gstrides(i0,i1,i2,i3,i4,i5) holds the six numbers.", "quantifier": "For all numbers.", "why_tests_cant": "A write just past the end of a vector is often not noticed.", "anchors": ["include/Gstrides.hpp:67-74"]}
{"id": "C361", "title": "Views taken by accessors", "statement": "TensorAccessor refuses tensors with another number of axes; without indices it takes no axes or one of size 1 and reaches the first cell; the constructor of FixedTensorAccessor with a size makes exactly that many cells zero.", "quantifier": "For all views, sizes and memories.", "why_tests_cant": "A test can try only some sizes.", "anchors": ["tensors/TensorAccessor.hpp:31-59", "tensors/TensorAccessor.hpp:69-73", "tensors/FixedTensorAccessor.hpp:38-41"]}
{"id": "C362", "title": "Layout of tensors of the old backend", "statement": "A new RtensorA has compact row-major strides, as many entries as the product of its sizes, an array of that many cells rounded up to a multiple of 32, and all of its entries lie inside, at different places; the constructor with reserved memory holds that many rows; the constructor for arrays of tensors pads each tensor to a multiple of 32; a tensor with no axes cannot be made.", "quantifier": "For all sizes, addresses and memories.", "why_tests_cant": "Tests use few sizes.", "anchors": ["legacy/backendA/RtensorA.hpp:113-149", "legacy/backendA/RtensorA.hpp:152-174", "legacy/backendA/RtensorA.hpp:177-208"]}
{"id": "C363", "title": "Values of new tensors", "statement": "Tensors made of zeros, ones, a sequence, a pointer, a function of the indices or a function of another tensor have these entries, and no other memory changes.", "quantifier": "For all sizes and functions.", "why_tests_cant": "Tests use few sizes.", "anchors": ["legacy/backendA/RtensorA.hpp:302-347", "legacy/backendA/RtensorA.hpp:402-436"]}
{"id": "C364", "title": "Identity matrices", "statement": "The identity of two equal sizes is the identity matrix; two different sizes are refused.", "quantifier": "For all sizes.", "why_tests_cant": "Tests use few sizes.", "anchors": ["legacy/backendA/RtensorA.hpp:314-321"]}
{"id": "C365", "title": "Identities with more axes", "statement": "An identity with more than two axes is a stack of identity matrices.", "quantifier": "For all sizes.", "why_tests_cant": "Tests rarely use more than two axes.", "anchors": ["legacy/backendA/RtensorA.hpp:314-321"]}
{"id": "C366", "title": "Copies and views", "statement": "A copy has the same sizes and entries in cells of its own; a view has the same sizes and entries in the same cells.", "quantifier": "For all tensors.", "why_tests_cant": "Aliasing shows only when both tensors are used afterwards.", "anchors": ["legacy/backendA/RtensorA.hpp:237-249", "legacy/backendA/RtensorA.hpp:451-462", "legacy/backendA/RtensorA.hpp:499-506"]}
{"id": "C367", "title": "Copies and views keep the layout", "statement": "A view has the strides of its tensor, and copies and views keep the number of batches.", "quantifier": "For all tensors.", "why_tests_cant": "Tensors with padding are rarely viewed in tests.", "anchors": ["legacy/backendA/RtensorA.hpp:237-249", "legacy/backendA/RtensorA.hpp:499-506", "legacy/backendA/RtensorA.hpp:583-589"]}
{"id": "C368", "title": "Reshaping", "statement": "A tensor can be given any sizes with the same number of entries: the entries stay in order; other sizes are refused.", "quantifier": "For all sizes.", "why_tests_cant": "Tests use few sizes.", "anchors": ["legacy/backendA/RtensorA.hpp:274-285", "legacy/backendA/RtensorA.hpp:592-598"]}
{"id": "C369", "title": "Access", "statement": "Reading, writing and incrementing an entry concern exactly that entry; another number of indices is refused.", "quantifier": "For all tensors and indices.", "why_tests_cant": "A write to a wrong cell is seen only if that cell is read.", "anchors": ["legacy/backendA/RtensorA.hpp:913-1212"]}
{"id": "C370", "title": "Elementwise operations", "statement": "Setting, scaling, dividing, adding, subtracting, multiples, ReLU and its derivative, sums of several tensors change each entry as named and nothing else; other sizes are refused.", "quantifier": "For all tensors apart from each other, or equal where the code allows it.", "why_tests_cant": "Tests use few sizes and do not look at other memory.", "anchors": ["legacy/backendA/RtensorA.hpp:1771-1802", "legacy/backendA/RtensorA.hpp:2030-2185"]}
{"id": "C371", "title": "Numbers of a tensor", "statement": "The squared norm, inner product, squared distance and largest entry are those of the entries.", "quantifier": "For all tensors of the same sizes.", "why_tests_cant": "Tests use few sizes.", "anchors": ["legacy/backendA/RtensorA.hpp:1816-1858", "legacy/backendA/RtensorA.hpp:1948-2003", "legacy/backendA/RtensorA.hpp:2187-2206"]}
{"id": "C372", "title": "Views of old tensors", "statement": "The views with one to three axes, of any rank, flattened, blocks and the view that picks an axis hold the entries they name; wrong numbers of axes are refused.", "quantifier": "For all tensors.", "why_tests_cant": "Tests use few sizes.", "anchors": ["legacy/backendA/RtensorA.hpp:1251-1365"]}
{"id": "C373", "title": "Windows", "statement": "A window of a tensor holds the entries with the offsets added to the first indices.", "quantifier": "For all tensors and offsets.", "why_tests_cant": "Windows are not tested.", "anchors": ["legacy/backendA/RtensorA.hpp:1485-1528"]}
{"id": "C374", "title": "Chunks", "statement": "Setting, adding to and taking out a range of an axis concern exactly that range; other sizes are refused.", "quantifier": "For all tensors and ranges inside the axis.", "why_tests_cant": "Tests use few sizes.", "anchors": ["legacy/backendA/RtensorA.hpp:1534-1643"]}
{"id": "C375", "title": "Adding a chunk of a longer tensor", "statement": "add_chunk_of adds the range of an axis of the other tensor.", "quantifier": "For all tensors and ranges.", "why_tests_cant": "Tests use few sizes.", "anchors": ["legacy/backendA/RtensorA.hpp:1594-1617"]}
{"id": "C376", "title": "Slices", "statement": "Adding to one slice, to all slices, adding a slice, taking a slice out and the view of a slice concern exactly that slice.", "quantifier": "For all tensors, axes and positions.", "why_tests_cant": "Tests use few sizes.", "anchors": ["legacy/backendA/RtensorA.hpp:1649-1765"]}
{"id": "C377", "title": "Chunks and slices of all sizes", "statement": "Chunks outside their axis are refused, and chunks and slices of all tensors can be taken.", "quantifier": "For all tensors.", "why_tests_cant": "Tests avoid empty tensors and ranges that do not fit.", "anchors": ["legacy/backendA/RtensorA.hpp:1534-1765"]}
{"id": "C378", "title": "Combined sizes and transposes", "statement": "combined_size is the product of the sizes of a range of axes; the transpose is the matrix with the last axes as rows and the first as columns; adding a transpose adds the entry with the two groups of indices exchanged.", "quantifier": "For all tensors with entries, all ranges of axes.", "why_tests_cant": "Tests use few sizes.", "anchors": ["legacy/backendA/RtensorA.hpp:422-436", "legacy/backendA/RtensorA.hpp:882-898", "legacy/backendA/RtensorA.hpp:2115-2136"]}
{"id": "C379", "title": "Combined sizes of empty tensors", "statement": "combined_size is the product of the sizes and transposes can be made for tensors with no entries too.", "quantifier": "For all tensors.", "why_tests_cant": "Tests avoid empty tensors.", "anchors": ["legacy/backendA/RtensorA.hpp:882-889", "legacy/backendA/RtensorA.hpp:891-898"]}
{"id": "C380", "title": "Products", "statement": "The three products add to each entry the sum over the common axes of the products of entries; a matrix times a vector and the tensor product of matrices are those of algebra.", "quantifier": "For all tensors, any number of common axes, empty sizes too.", "why_tests_cant": "Tests use few sizes.", "anchors": ["legacy/backendA/RtensorA.hpp:2375-2530", "legacy/backendA/RtensorA.hpp:2009-2023", "legacy/backendA/RtensorA.hpp:1931-1941"]}
{"id": "C381", "title": "Columns", "statement": "The norms of columns, their derivative, the quotients by a number for each column and their derivatives are added entry by entry.", "quantifier": "For all tensors with at least two axes, the last two not empty.", "why_tests_cant": "Tests use few sizes.", "anchors": ["legacy/backendA/RtensorA.hpp:2233-2369"]}
{"id": "C382", "title": "Dividing and normalizing columns", "statement": "divide_cols answers the tensor with each column divided by its number, normalize_cols the tensor with each column divided by its norm.", "quantifier": "For all tensors.", "why_tests_cant": "Nothing compares the results.", "anchors": ["legacy/backendA/RtensorA.hpp:1876-1928"]}
{"id": "C383", "title": "Sums over an axis", "statement": "reduce_destructively answers the sums over an axis that is not the first and has at least two entries.", "quantifier": "For all tensors.", "why_tests_cant": "The sums are made in place by halves; tests use few sizes.", "anchors": ["legacy/backendA/RtensorA.hpp:2536-2548"]}
{"id": "C384", "title": "Sums over the first axis and axes of one entry", "statement": "reduce_destructively answers the sums over any axis.", "quantifier": "For all tensors and axes.", "why_tests_cant": "Tests avoid axes of one entry.", "anchors": ["legacy/backendA/RtensorA.hpp:2536-2548"]}
{"id": "C385", "title": "Old tensors release every array once", "statement": "In any program of constructions, copies, views, slices, moves, assignments, growth, reshapes, writes and destructions of old-backend real tensors that runs without undefined behaviour, each allocated array has exactly one tensor that releases it; a destructor always finds its array still allocated and releases that array only; when no tensor is left no array is left.", "quantifier": "for all programs and contents of new arrays", "why_tests_cant": "Leaks and double releases depend on the order of many operations; tests run a few orders and see neither.", "anchors": ["legacy/backendA/RtensorA.hpp:85-88", "legacy/backendA/RtensorA.hpp:128-149", "legacy/backendA/RtensorA.hpp:451-578", "legacy/backendA/RtensorA.hpp:616-658"]}
{"id": "C386", "title": "Old tensors are values", "statement": "A program of constructions, copies, moves, assignments between different tensors, growth of tensors whose slices have entries, writes and destructions of old-backend real tensors that own their arrays never fails and computes on independent values, whatever new arrays held before; appending a slice of other sizes is refused; a view of a slice shows the entries of that slice, and what is written to it is written to the tensor.", "quantifier": "for all such programs, sizes, entries and contents of new arrays", "why_tests_cant": "Aliasing and stale contents show only for particular orders of operations.", "anchors": ["legacy/backendA/RtensorA.hpp:128-149", "legacy/backendA/RtensorA.hpp:451-578", "legacy/backendA/RtensorA.hpp:616-658"]}
{"id": "C387", "title": "Appending slices keeps all of them", "statement": "After appending any number of slices that have entries with push_back_slice0, in any state of the other tensors, the tensor holds its old entries and then the slices in order, however often it had to move to a larger array; also from a tensor of no slices.", "quantifier": "for all numbers of slices, sizes and entries", "why_tests_cant": "Growth happens at particular counts that depend on rounding of the sizes.", "anchors": ["legacy/backendA/RtensorA.hpp:616-658"]}
{"id": "C388", "title": "Assignment and growth work for all arguments", "statement": "Assignment, move assignment and appending give the right values for all arguments: the tensor itself, views of it, slices of it, slices of no entries, and after reshaping.", "quantifier": "for all arguments", "why_tests_cant": "The failures read released memory, which usually still holds the old numbers.", "anchors": ["legacy/backendA/RtensorA.hpp:274-285", "legacy/backendA/RtensorA.hpp:535-578", "legacy/backendA/RtensorA.hpp:616-658"]}
{"id": "C389", "title": "Broadcasting by doubling fills every block", "statement": "BroadcastCopy_cfloat puts the source into each of n blocks of the real and of the imaginary part for every n, reads only what it has written or the source, and changes nothing else.", "quantifier": "for all n, block sizes and contents with separate arrays", "why_tests_cant": "Doubling is wrong only for particular n, such as powers of two or their neighbours; it needs a GPU to run.", "anchors": ["include/Broadcaster.hpp:31-52"]}
{"id": "C390", "title": "Broadcast-adding adds the source to every block", "statement": "BroadcastAdd_cfloat adds the source to each of n blocks of both parts and changes nothing else.", "quantifier": "for all n, block sizes and contents", "why_tests_cant": "A destination of zeros, the usual test, hides the error.", "anchors": ["include/Broadcaster.hpp:60-82"]}
{"id": "C391", "title": "Reducing by halving sums all blocks", "statement": "ReduceAddDestroy_cfloat adds to both parts of the destination the sums over the n blocks of the source and changes nothing but the source and the destination.", "quantifier": "for all n, block sizes and contents", "why_tests_cant": "The halving steps depend on n; n=1 is easily left out of tests.", "anchors": ["include/Reducer.hpp:31-53"]}
{"id": "C392", "title": "Reducing through a buffer sums all blocks", "statement": "ReduceAdd_cfloat adds to both parts of the destination the sums over the n blocks of the source and leaves the source unchanged.", "quantifier": "for all n, block sizes and contents", "why_tests_cant": "It is right for n=2 only; a test with two blocks passes.", "anchors": ["include/Reducer.hpp:61-91"]}
{"id": "C393", "title": "Unordered pairs have their own places", "statement": "GindexSymm maps the pairs of n indices, in either order, one to one onto 0..n(n+1)/2.", "quantifier": "for all n and pairs", "why_tests_cant": "All pairs of all n cannot be tried.", "anchors": ["include/GindexSymm.hpp:51-56"]}
{"id": "C394", "title": "Symmetric indices of any length have their own places", "statement": "GindexSymm gives different places to indices of the same length that differ as multisets.", "quantifier": "for all lengths, n and indices", "why_tests_cant": "Tests use pairs.", "anchors": ["include/GindexSymm.hpp:47-68"]}
{"id": "C395", "title": "Fused indices have row-major places", "statement": "GindexFuser with two and three indices gives the row-major place, below the product of the sizes.", "quantifier": "for all sizes and indices", "why_tests_cant": "All sizes cannot be tried.", "anchors": ["include/GindexFuser.hpp:57-67"]}
{"id": "C396", "title": "Copying a pack of tensors copies every part", "statement": "copy() of a BGtensorPack gives a pack with the same variables and keys whose parts lie in new, pairwise different arrays and hold what the parts of the original hold; the arrays there before are unchanged.", "quantifier": "all packs with distinct keys whose parts are allocated, all memories", "why_tests_cant": "sharing between parts and between copies shows only in later writes", "anchors": ["tensors/BGtensorPack.hpp:86-91", "tensors/TensorView.hpp:206-211"]}
{"id": "C397", "title": "Adding packs of tensors adds part by part, zip pairs by key", "statement": "add(x) on packs with the same keys and separate arrays adds to every part the part of x under the same key and changes no other array; packs of other sizes or keys are refused; x+y holds the sums in new arrays even if x and y share arrays; zip pairs the parts by keys whatever the operation.", "quantifier": "all packs, all memories, all types with addition", "why_tests_cant": "tests use few keys and never shared arrays", "anchors": ["tensors/BGtensorPack.hpp:203-208", "tensors/BGtensorPack.hpp:284-288", "tensors/BGtensorPack.hpp:304-308"]}
{"id": "C398", "title": "Subtracting packs of tensors subtracts part by part", "statement": "subtract(x) on a BGtensorPack takes from every part the part of x under the same key, and x-y holds the differences and leaves y unchanged.", "quantifier": "all packs, all memories", "why_tests_cant": "the result has the right shape; only the values of the argument after the call show the fault", "anchors": ["tensors/BGtensorPack.hpp:290-294", "tensors/BGtensorPack.hpp:310-314"]}
{"id": "C399", "title": "Inserting and removing parts changes one key", "statement": "insert(key,x) with a new key and the right sizes makes the part under the key the array of x and keeps the other parts; other sizes are refused once the pack has a part; remove(key) drops exactly that key.", "quantifier": "all packs, keys, arrays", "why_tests_cant": "tests insert in one order", "anchors": ["tensors/BGtensorPack.hpp:175-189"]}
{"id": "C400", "title": "Inserting under a key in use replaces the part", "statement": "After insert(key,x) the part under the key is x, also when the key was in use.", "quantifier": "all packs with a key in use", "why_tests_cant": "no error is raised and the sizes agree", "anchors": ["tensors/BGtensorPack.hpp:175-185"]}
{"id": "C401", "title": "Assigning packs makes them equal", "statement": "After r=x for packs of the same variables, r has the keys of x and its parts hold what those of x hold.", "quantifier": "all packs, all memories", "why_tests_cant": "tests assign packs with the same keys", "anchors": ["tensors/BGtensorPack.hpp:77-84"]}
{"id": "C402", "title": "A gradient is the sum of what was added to it", "statement": "After any sequence of add_to_grad(x), add_to_grad(x,c) and get_grad() on an object without gradient, the gradient is the sum of the contributions and lies in an array of its own; the arrays added are unchanged.", "quantifier": "all sequences, all memories, all additions that are associative with a zero", "why_tests_cant": "needs two backward passes that reach the same object in a certain order", "anchors": ["utility/diff_class.hpp:56-80", "tensors/TensorView.hpp:206-211"]}
{"id": "C403", "title": "Threads with cells of their own do what they would do alone", "statement": "However the threads of a launch are interleaved, if every thread writes only cells no other thread touches, the launch ends with every thread having done what it would do alone; launches change only cells that some thread may write.  Without cells of their own the order matters.", "quantifier": "all launches, all programs of threads, all interleavings, all memories", "why_tests_cant": "a run on a GPU shows one interleaving", "anchors": ["cuda/TensorView_add.cu:26-59", "cuda/RtensorUtils.cu:42-62"]}
{"id": "C404", "title": "Matrices are copied and added on the GPU in any order of the threads", "statement": "Rtensor_copy_cu, Rtensor_add_cu and Rtensor_add_cu with a factor for matrices (at most 1024 rows or at most 65535 columns) give every entry its value and change nothing else, for any strides, however the threads run; also when both views are the same. Rtensor_inc_cu adds to one cell.", "quantifier": "all views, strides, sizes, memories, interleavings", "why_tests_cant": "the number of interleavings is not bounded, and the branch taken depends on the sizes", "anchors": ["cuda/RtensorUtils.cu:68-116", "cuda/RtensorUtils.cu:356-421", "cuda/CUDAhelpers.hpp:29-62"]}
{"id": "C405", "title": "Matrices of any size are copied and added on the GPU", "statement": "Rtensor_copy_cu and Rtensor_add_cu work for matrices of any size.", "quantifier": "all sizes", "why_tests_cant": "needs a matrix with more than 67 million entries", "anchors": ["cuda/CUDAhelpers.hpp:29-62"]}
{"id": "C406", "title": "Vectors are copied and added on the GPU", "statement": "Rtensor_copy_cu and Rtensor_add_cu give every entry of a vector its value.", "quantifier": "all vectors, strides, interleavings", "why_tests_cant": "the error of the launch is not looked at, so nothing is reported", "anchors": ["cuda/RtensorUtils.cu:361-368", "cuda/RtensorUtils.cu:393-401"]}
{"id": "C407", "title": "Tensors with three axes are copied and added on the GPU", "statement": "Rtensor_copy_cu and Rtensor_add_cu (with and without factor) for three axes give every entry its value and change nothing else, for any strides and in any order of the threads, if two of the sizes have a product of at most 1024, and the last is at most 64 if all three have.", "quantifier": "all views, strides, sizes with that condition, memories, interleavings", "why_tests_cant": "the number of interleavings is not bounded, and the branch taken depends on the sizes", "anchors": ["cuda/CUDAhelpers.hpp:65-128", "cuda/RtensorUtils.cu:122-206", "cuda/RtensorUtils.cu:380-445"]}
{"id": "C408", "title": "Tensors with three axes of any size are copied and added on the GPU", "statement": "Rtensor_copy_cu and Rtensor_add_cu for three axes give every entry its value for sizes without further conditions.", "quantifier": "all sizes", "why_tests_cant": "the wrong branches are taken only for sizes such as 33 x 33 x 33", "anchors": ["cuda/CUDAhelpers.hpp:65-128"]}
{"id": "C409", "title": "Batches of vectors are added on the GPU", "statement": "batched_add_cu adds n entries in each of b batches (n below 65536*1024) and changes nothing else, in any order of the threads.", "quantifier": "all sizes below that bound, strides, memories, interleavings", "why_tests_cant": "the last launch and the first one share the entries only for sizes that are not multiples of 1024", "anchors": ["cuda/RtensorUtils.cu:212-218", "cuda/RtensorUtils.cu:448-456"]}
{"id": "C410", "title": "Reducing the middle axis in place on the GPU gives the sums", "statement": "For a regular view with at least two rows in a batch, the halving launches leave the sum over the middle axis in the first row of each batch and change nothing outside the view, in any order of the threads.", "quantifier": "all sizes, all memories, all commutative sums, all interleavings", "why_tests_cant": "the number of launches depends on the size and each can be interleaved in any way", "anchors": ["tensor_views/Rtensor3_view.hpp:368-385", "cuda/RtensorUtils.cu:448-456"]}
{"id": "C411", "title": "Reducing an axis with one entry leaves it as it is", "statement": "Reducing a middle axis with one entry on the GPU changes nothing.", "quantifier": "all regular views with one row in a batch", "why_tests_cant": "tests reduce axes with several entries", "anchors": ["tensor_views/Rtensor3_view.hpp:368-385"]}
{"id": "C412", "title": "The in-place reduction of RtensorReduce gives the sums", "statement": "InplaceReduce1_cu leaves the sum over the middle axis in the first row of each batch.", "quantifier": "all regular views, memories, interleavings", "why_tests_cant": "the wrong offset appears only with more than 1024 entries to fold, not a multiple of 1024", "anchors": ["cuda/RtensorReduce.cu:27-66"]}
{"id": "C413", "title": "Summing the rows of a matrix into a vector on the GPU", "statement": "Rtensor_sum0_into_cu adds to each entry of the vector the sum of its column, times the factor if there is one, in any order of the threads, and refuses vectors of another length.", "quantifier": "all views, strides, sizes, memories, interleavings", "why_tests_cant": "the last launch is used only for sizes that are not multiples of 1024", "anchors": ["cuda/RtensorUtils.cu:225-251", "cuda/RtensorUtils.cu:459-479"]}
{"id": "C414", "title": "Summing the middle axis into a matrix on the GPU", "statement": "Rtensor3_sum1_into_cu adds to each entry of the matrix the sum over the middle axis, if the last axis has at most 1024 entries.", "quantifier": "all views, strides, sizes with that bound, memories, interleavings", "why_tests_cant": "a run shows one interleaving", "anchors": ["cuda/RtensorUtils.cu:254-260", "cuda/RtensorUtils.cu:481-489"]}
{"id": "C415", "title": "Multiplying rows of a matrix on the GPU", "statement": "ScaleSomeSlices_cu multiplies each row named by an index by its factor and changes nothing else, if no index occurs twice and there are at most 1024 columns.", "quantifier": "all views, strides, indices, factors, memories, interleavings", "why_tests_cant": "a run shows one interleaving", "anchors": ["cuda/RtensorUtils.cu:266-276", "cuda/RtensorUtils.cu:493-501"]}
{"id": "C416", "title": "Multiplying slices of a tensor on the GPU", "statement": "ScaleSomeSlices_cu for three axes multiplies each slice named by an index by its factor and changes nothing else, if no index occurs twice, whenever the launch is allowed.", "quantifier": "all views, strides, sizes, indices, factors, memories, interleavings", "why_tests_cant": "three branches depend on remainders of the sizes", "anchors": ["cuda/RtensorUtils.cu:266-276", "cuda/RtensorUtils.cu:503-523"]}
{"id": "C417", "title": "Rotating pairs of slices on the GPU", "statement": "GivensSomeSlices_cu replaces the rows (or slices of at most 1024 entries) of each pair by their rotation and changes nothing else, if no index occurs twice.", "quantifier": "all views, strides, indices, factors, memories, interleavings", "why_tests_cant": "a run shows one interleaving", "anchors": ["cuda/RtensorUtils.cu:282-304", "cuda/RtensorUtils.cu:526-556"]}
{"id": "C418", "title": "Rotating pairs of large slices on the GPU", "statement": "GivensSomeSlices_cu rotates pairs of slices with more than 1024 entries.", "quantifier": "all compact tensors", "why_tests_cant": "needs slices with more than 1024 entries", "anchors": ["cuda/RtensorUtils.cu:306-316", "cuda/RtensorUtils.cu:536-556"]}
{"id": "C419", "title": "ReLU and its gradient are added on the GPU", "statement": "add_ReLU and add_ReLU_back add to the entries of the target, as on the CPU.", "quantifier": "all vectors, memories, interleavings", "why_tests_cant": "tests use a target of zeros", "anchors": ["cuda/RtensorUtils.cu:322-334", "cuda/RtensorUtils.cu:560-581", "tensor_views/Rtensor1_view.hpp:236-259"]}
{"id": "C420", "title": "Sums and slices on the GPU work for all sizes or report that they do not", "statement": "batched_add_cu, Rtensor3_sum1_into_cu and ScaleSomeSlices_cu do their work for all sizes.", "quantifier": "all sizes", "why_tests_cant": "no error is raised; the sizes needed are large", "anchors": ["cuda/RtensorUtils.cu:448-456", "cuda/RtensorUtils.cu:481-523"]}
{"id": "C421", "title": "An index that occurs twice multiplies twice", "statement": "ScaleSomeSlices_cu multiplies a row by the product of all factors given for it, as on the CPU.", "quantifier": "all indices", "why_tests_cant": "a race: most runs may give the right value", "anchors": ["cuda/RtensorUtils.cu:266-268", "cuda/RtensorUtils.cu:493-501"]}
{"id": "C422", "title": "TensorView vectors are assigned, added and incremented on the GPU as on the CPU", "statement": "For vectors of fewer than 1024 entries, or of a multiple of 1024 above it, every interleaving of the threads of TensorView_assign/add/inc_cu ends with each entry of r replaced by x, increased by x, or increased by c, and no other cell changed.", "quantifier": "all such sizes, strides, contents, interleavings", "why_tests_cant": "schedules of threads are not chosen by tests", "anchors": ["cuda/TensorView_add.cu:25-74", "cuda/TensorView_assign.cu:25-74", "cuda/TensorView_inc.cu:25-74"]}
{"id": "C423", "title": "TensorView vectors of all lengths are handled on the GPU", "statement": "TensorView_assign/add/inc_cu handle vectors of every length.", "quantifier": "all lengths", "why_tests_cant": "the lengths used in tests are small", "anchors": ["cuda/TensorView_add.cu:69-74"]}
{"id": "C424", "title": "TensorView matrices are assigned, added and incremented on the GPU as on the CPU", "statement": "For matrices whose rows have at most 1024 entries, or a multiple of 1024, every interleaving of the threads ends with each entry of r replaced by x, increased by x, or increased by c, and no other cell changed.", "quantifier": "all such sizes, strides (transposed ones included), contents, interleavings", "why_tests_cant": "schedules of threads are not chosen by tests; four branches by size", "anchors": ["cuda/TensorView_add.cu:76-94", "cuda/TensorView_assign.cu:76-94", "cuda/TensorView_inc.cu:76-94"]}
{"id": "C425", "title": "TensorView matrices with long rows are handled on the GPU", "statement": "TensorView_assign/add/inc_cu handle rows of every length.", "quantifier": "all lengths of rows", "why_tests_cant": "rows longer than 1024 that are no multiple of it are needed", "anchors": ["cuda/TensorView_add.cu:87-93"]}
{"id": "C426", "title": "TensorView 3-tensors are assigned, added and incremented on the GPU as on the CPU", "statement": "With at most 65535 along the second axis, a last axis of at most 1024 entries or a multiple of 1024 (and at most 64 if there are fewer than 128 entries in all), every interleaving of the threads ends with each entry of r replaced by x, increased by x, or increased by c, and no other cell changed.", "quantifier": "all such sizes, strides, contents, interleavings", "why_tests_cant": "schedules of threads are not chosen by tests; branches by size", "anchors": ["cuda/TensorView_add.cu:96-123"]}
{"id": "C427", "title": "TensorView 3-tensors of all shapes are handled on the GPU", "statement": "TensorView_assign/add/inc_cu handle 3-tensors of every shape.", "quantifier": "all shapes", "why_tests_cant": "a small tensor with a last axis over 64, or a long last axis, is needed; no error is raised", "anchors": ["cuda/TensorView_add.cu:96-123"]}
{"id": "C428", "title": "Dense convolution in two dimensions on the GPU", "statement": "RtensorConvolve2d on the GPU, for views with four and five axes, adds to every output entry the sum over filter positions and input channels of input times filter, taken where output position plus filter position minus padding lies in the input, in every interleaving of the threads; padding is half of output minus input plus filter minus 1; nothing else changes.", "quantifier": "all views within the launch limits whose output cells are distinct and apart from input and filter, all paddings such that unpadded filters fit the input, all contents, all interleavings", "why_tests_cant": "Kernels are run on one device with one scheduler and a handful of shapes.", "anchors": ["cuda/RtensorConvolve2d.cu:27-169", "tensor_views/functions/RtensorConvolve2d.hpp:69-123"]}
{"id": "C429", "title": "Dense convolution in three dimensions on the GPU", "statement": "RtensorConvolve3d on the GPU, for views with four, five and six axes, adds to every output entry the sum over filter positions and input channels of input times filter where the filter meets the input, in every interleaving; nothing else changes.", "quantifier": "all views within the launch limits (with a further axis at most 1024 pairs of channel and further index) whose output cells are distinct and apart from input and filter, all paddings such that unpadded filters fit the input, all contents, all interleavings", "why_tests_cant": "The index arithmetic of five kernels with three filter axes has more cases than samples reach.", "anchors": ["cuda/RtensorConvolve3d.cu:27-281", "tensor_views/functions/RtensorConvolve3d.hpp:35-133"]}
{"id": "C430", "title": "Dense convolutions on the GPU stay within the input and handle every size", "statement": "For all sizes the dense convolutions on the GPU read only the input and update the output.", "quantifier": "all views, all sizes", "why_tests_cant": "Reading a few floats past a buffer on the device goes unnoticed, and a size beyond the block limit is only seen with many channels.", "anchors": ["cuda/RtensorConvolve2d.cu:27-169", "cuda/RtensorConvolve3d.cu:217-281", "tensor_views/functions/RtensorConvolve2d.hpp:74-75"]}
{"id": "C431", "title": "Sparse convolution in three dimensions on the GPU without padding", "statement": "RtensorConvolve3dSparse on the GPU, for views with five and six axes and no padding, adds to every output entry the sum over the stored entries of the filter's row for its channel of input times value, in every interleaving; nothing else changes.", "quantifier": "all views within the launch limits with output plus filter equal to input plus one, all rows of entries, all contents, all interleavings", "why_tests_cant": "Samples fix the pattern of the filter and one order of threads.", "anchors": ["cuda/RtensorConvolve3dSparse.cu:91-272", "tensor_views/functions/RtensorConvolve3dSparse.hpp:71-128"]}
{"id": "C432", "title": "Sparse convolution on the GPU without the further axis", "statement": "RtensorConvolve3dSparse on the GPU for views with four axes updates all output channels.", "quantifier": "all views, all filters", "why_tests_cant": "A test with one output channel passes.", "anchors": ["cuda/RtensorConvolve3dSparse.cu:30-86", "tensor_views/functions/RtensorConvolve3dSparse.hpp:37-68"]}
{"id": "C433", "title": "Sparse convolution on the GPU with padding", "statement": "RtensorConvolve3dSparse on the GPU with padding takes the padding off the input position.", "quantifier": "all views with padding, all filters", "why_tests_cant": "A padded sparse filter on the GPU is one of many combinations and its result is plausible.", "anchors": ["cuda/RtensorConvolve3dSparse.cu:60-86", "cuda/RtensorConvolve3dSparse.cu:118-143"]}
{"id": "C434", "title": "Programs on array pools agree with lists of lists", "statement": "Any program of construction, push_back, set, reading, copying, moving, assignment, transport to the GPU and back and destruction of array_pool that the list reference accepts gives the results of the reference, has no undefined behaviour, throws where the reference does, and releases every block exactly once when its pool goes.", "quantifier": "all programs that the reference accepts, all element types", "why_tests_cant": "Tests run a few programs; wrong releases show only under particular sequences of assignments, moves and growth.", "anchors": ["containers/array_pool.hpp:40-75", "containers/array_pool.hpp:194-300", "containers/array_pool.hpp:470-520"]}
{"id": "C435", "title": "The copy of an array pool on the GPU", "statement": "gpu_arrs of an array_pool gives kernels the lists of the pool.", "quantifier": "all programs, all pools on the host", "why_tests_cant": "The copy is right the first time; a test that changes the pool between two calls is rare.", "anchors": ["containers/array_pool.hpp:406-412"]}
{"id": "C436", "title": "Array pools assigned to themselves, viewed, moved away or copied on the GPU", "statement": "Self-assignment keeps the lists, growth of a view leaves its owner intact, a moved-from pool can be used, the copy of a pool on the GPU has its lists, and views release what they allocate.", "quantifier": "all programs", "why_tests_cant": "Each of these is a separate rare pattern.", "anchors": ["containers/array_pool.hpp:62-72", "containers/array_pool.hpp:194-300"]}
{"id": "C437", "title": "Equality of array pools", "statement": "operator== of two array_pools on the host tells whether they hold the same lists, whatever their history and spare capacity.", "quantifier": "all programs that the reference accepts, all pairs of pools", "why_tests_cant": "Pools with the same lists but other histories are not compared in tests.", "anchors": ["containers/array_pool.hpp:597-610"]}
{"id": "C438", "title": "Visiting the lists of an array pool", "statement": "as_vecs gives the lists of the pool and for_each visits all elements in order, each with the number of its list.", "quantifier": "all programs that the reference accepts, all pools on the host", "why_tests_cant": "Empty lists between others and pools after growth are rarely in tests.", "anchors": ["containers/array_pool.hpp:566-596"]}
{"id": "C439", "title": "Programs on integer tensors agree with lists of rows", "statement": "Any program of construction, push_back, set, reading, copying, moving, assignment, transport to the GPU, get_arrg and destruction of two-dimensional IntTensors that the row reference accepts gives the results of the reference, has no undefined behaviour, throws where the reference does, and releases every block exactly once.", "quantifier": "all programs that the reference accepts, all row lengths", "why_tests_cant": "Tests run a few programs; wrong releases show only under particular sequences.", "anchors": ["tensors/IntTensor.hpp:39-54", "tensors/IntTensor.hpp:177-361", "tensors/IntTensor.hpp:616-625"]}
{"id": "C440", "title": "Integer tensors across devices, assigned to themselves, moved away or viewed", "statement": "Assignment, also to itself and across devices, keeps tensors usable and releases arrays once; a tensor can be moved to the GPU and back; get_arrg gives the present rows; moved-from tensors can be used; rows can be appended on the GPU; views have their own rows.", "quantifier": "all programs", "why_tests_cant": "The contents look right after each operation; the pointer left behind shows only when the tensor is destroyed or used on the GPU.", "anchors": ["tensors/IntTensor.hpp:251-318", "tensors/IntTensor.hpp:324-331", "tensors/IntTensor.hpp:450-453", "tensors/IntTensor.hpp:616-625"]}
{"id": "C441", "title": "Equality of integer tensors", "statement": "operator== of two IntTensors on the host tells whether they have the same rows.", "quantifier": "all programs that the reference accepts, all pairs of tensors", "why_tests_cant": "Tests compare tensors built the same way, so their capacities agree.", "anchors": ["tensors/IntTensor.hpp:581-587"]}
{"id": "C442", "title": "Products with up to two indices on the GPU", "statement": "The products `r+=x*y` of cuda/RtensorEinsumProducts.cu with at most two indices in the result add to every entry the sum of the products of the factors over the summed indices, for any strides (also zero ones, so matrix products and broadcasts are included), in every order of the threads, and change no other cell: with no sum and with one sum for up to two indices, and with two sums for one or two indices.", "quantifier": "all strides and sizes within the limits of the device, all contents, all interleavings", "why_tests_cant": "There are three launch shapes per function, chosen by size, and a test with a GPU runs one interleaving.", "anchors": ["cuda/RtensorEinsumProducts.cu"]}
{"id": "C443", "title": "Products with three indices and one sum on the GPU", "statement": "`Rtensor_addEinsum_3_1_0_cu` adds to every entry of the result the sum of the products over the summed index, whatever the sizes.", "quantifier": "all strides and sizes within the limits of the device, all contents, all interleavings", "why_tests_cant": "The launch that the device refuses is only met for thin tensors with more than 64 entries along the last axis.", "anchors": ["cuda/RtensorEinsumProducts.cu"]}
{"id": "C444", "title": "Products with three indices and no sum on the GPU", "statement": "`Rtensor_addEinsum_3_0_0_cu` adds to every entry of the result the product of the entries of the factors.", "quantifier": "all strides and sizes within the limits of the device, all contents, all interleavings", "why_tests_cant": "Only small tensors take the wrong launch.", "anchors": ["cuda/RtensorEinsumProducts.cu"]}
{"id": "C445", "title": "Products with two sums and no index on the GPU", "statement": "`Rtensor_addEinsum_0_2_0_cu` adds the sum of the products over both summed indices to the result.", "quantifier": "all strides and sizes, all contents", "why_tests_cant": "With two contiguous matrices of the same shape the strides of the factors agree and the slip is not seen.", "anchors": ["cuda/RtensorEinsumProducts.cu"]}
{"id": "C446", "title": "Products with three indices and two sums on the GPU", "statement": "`Rtensor_addEinsum_3_2_0_cu` adds to every entry of the result the sum of the products over both summed indices, once.", "quantifier": "all strides and sizes within the limits of the device, all contents, all interleavings", "why_tests_cant": "How often the sum is added depends on the sizes.", "anchors": ["cuda/RtensorEinsumProducts.cu"]}
{"id": "C447", "title": "Row-major tensors are copied between devices", "statement": "Constructing a tensor on a device from another, `copy(dev)`, `move_to_device` and the functions that make a filled tensor and move it give, for a row-major tensor, a tensor of that device with the same shape and the same entries (for filled ones, the fill at the row-major position), and leave the memory in use before as it was.", "quantifier": "all shapes, offsets, contents, both devices for source and target, all previous contents of new memory", "why_tests_cant": "Needs two devices, and the four directions go through different branches.", "anchors": ["tensors/TensorView.hpp:144-275", "tensors/functions/TensorView_assign.hpp:30-100"]}
{"id": "C448", "title": "Other tensors of the GPU are copied", "statement": "Constructing a tensor on the host or on the GPU from a tensor of the GPU, and `copy(dev)`, give the same entries for any strides, when however axes are merged the sizes are ones the kernels handle; all tensors of one to three axes and at most 1023 entries are of that kind.", "quantifier": "all strides of the source (cells may repeat), all shapes with sizes of at least two within the limits, all interleavings of the threads", "why_tests_cant": "The axes are merged first, so which kernel runs depends on the strides; threads interleave.", "anchors": ["tensors/functions/TensorView_assign.hpp:30-88", "cuda/TensorView_assign.cu:64-129"]}
{"id": "C449", "title": "Tensors of the host are copied to the GPU", "statement": "Constructing a tensor on the GPU from a tensor of the host gives the same entries, whatever the strides and the type of the entries.", "quantifier": "all shapes, strides, contents", "why_tests_cant": "The copy constructor and assignment call each other only when the tensor is not row-major; tests use fresh tensors.", "anchors": ["tensors/functions/TensorView_assign.hpp:62-72", "tensors/TensorView.hpp:265-268"]}
{"id": "C450", "title": "Moving a tensor keeps its entries", "statement": "`move_to_device` leaves every entry of the tensor as it was.", "quantifier": "all shapes, strides, contents, both directions", "why_tests_cant": "Only tensors with other strides than row-major ones show it.", "anchors": ["tensors/TensorView.hpp:270-275"]}
{"id": "C451", "title": "Copies that keep the strides, without gaps", "statement": "`copy_keeping_strides` of a tensor that fills a block, in any order of the axes, between any devices, has the same strides, the same shape and the same entries, and leaves the memory in use before as it was.", "quantifier": "all shapes, strides, contents, both devices for source and target", "why_tests_cant": "Orders of axes grow factorially.", "anchors": ["tensors/TensorView.hpp:244-249", "tensors/functions/TensorView_assign.hpp:90-100"]}
{"id": "C452", "title": "Any tensor of the GPU is copied", "statement": "Constructing a tensor on the GPU from another tensor of the GPU gives the same entries, whatever the shape and strides.", "quantifier": "all shapes, strides, contents", "why_tests_cant": "Tests on the GPU use few axes, and axes are merged when they can be.", "anchors": ["tensors/functions/TensorView_assign.hpp:74-88", "cuda/TensorView_assign.cu:125-129"]}
{"id": "C453", "title": "Copies that keep strides with gaps", "statement": "`copy_keeping_strides` of a tensor with gaps between its entries ends with a copy of the entries, between any devices.", "quantifier": "all shapes, strides, contents", "why_tests_cant": "Needs a GPU and a tensor with gaps.", "anchors": ["tensors/TensorView.hpp:244-249", "tensors/functions/TensorView_assign.hpp:62-72"]}
{"id": "C454", "title": "Real matrix products on the GPU", "statement": "add_matmul_AA, add_matmul_AT, add_matmul_TA and add_mprod with data on the GPU add the matrix product to the result, change nothing else, agree with the CPU, and refuse sizes that do not fit.", "quantifier": "all sizes, all row strides of matrices with neighbouring entries in a row and at least one entry per row, all contents", "why_tests_cant": "cuBLAS stores matrices by columns, so factors are swapped and leading dimensions have to be the row strides; needs a GPU.", "anchors": ["tensor_views/Rtensor2_view.hpp:220-326"]}
{"id": "C455", "title": "Real products over an empty axis on the GPU", "statement": "A product whose inner axis has size 0 leaves the result as it is, on the GPU as on the CPU.", "quantifier": "all result sizes and contents", "why_tests_cant": "Empty axes are not tested, and need a GPU.", "anchors": ["tensor_views/Rtensor2_view.hpp:238-264"]}
{"id": "C456", "title": "One matrix times a batch on the GPU", "statement": "add_mprod(x,y) of a three-axis view on the GPU adds x times y_b to matrix b for every b, for a regular or transposed x and neighbouring entries in rows, and changes nothing else.", "quantifier": "all sizes, batch strides and contents", "why_tests_cant": "The batched routine takes six strides; needs a GPU.", "anchors": ["tensor_views/Rtensor3_view.hpp:191-220"]}
{"id": "C457", "title": "Strides of batched products on the GPU", "statement": "add_mprod(x,y) on the GPU computes the product of the entries of the views, for all strides of the views.", "quantifier": "all strides", "why_tests_cant": "Last strides other than 1 are rare; needs a GPU.", "anchors": ["tensor_views/Rtensor3_view.hpp:191-220"]}
{"id": "C458", "title": "Complex matrix products on the GPU", "statement": "add_matmul_AA, add_matmul_AH and add_matmul_HA of regular complex matrices on the GPU add the product with the conjugates of the entries of the transposed factor, change nothing else, and refuse a result that is not regular and, for AH and HA, sizes that do not fit.", "quantifier": "all sizes and contents", "why_tests_cant": "Order of factors, conjugation and pairs of floats; needs a GPU.", "anchors": ["tensor_views/Ctensor2_view.hpp:158-257"]}
{"id": "C459", "title": "Strides of complex products on the GPU", "statement": "add_matmul_AA on the GPU computes the product of the entries of the views or refuses, for all strides of the factors.", "quantifier": "all strides of the factors", "why_tests_cant": "Only the result is checked to be regular; needs a GPU.", "anchors": ["tensor_views/Ctensor2_view.hpp:158-187"]}
{"id": "C460", "title": "Complex mixing of the middle axis on the GPU", "statement": "add_mix_1_0(x,y) of regular complex tensors on the GPU adds the sum over k of x(i,k,l)*y(k,j) to r(i,j,l) and changes nothing else.", "quantifier": "all sizes and contents", "why_tests_cant": "A batched transposed product; needs a GPU.", "anchors": ["tensor_views/Ctensor3_view.hpp:170-208"]}
{"id": "C461", "title": "Sums of views on the GPU", "statement": "add(x) and add(x,c) of vectors of any strides, add(x) of regular matrices, and add(x), add(x,c) of regular three-axis tensors on the GPU add x or c*x entry by entry and change nothing else; vectors of different lengths are refused.", "quantifier": "all sizes, vector strides and contents; operands share no cell or only at equal positions", "why_tests_cant": "Needs a GPU.", "anchors": ["tensor_views/Rtensor1_view.hpp:184-206", "tensor_views/Rtensor2_view.hpp:186-194", "tensor_views/Rtensor3_view.hpp:144-160"]}
{"id": "C462", "title": "The sum of a vector on the GPU", "statement": "reduce() of a vector on the GPU is the sum of its entries.", "quantifier": "all vectors", "why_tests_cant": "Tests with positive numbers pass; needs a GPU.", "anchors": ["tensor_views/Rtensor1_view.hpp:208-222"]}
{"id": "C463", "title": "Scaling a tensor on the GPU", "statement": "inplace_times(c) on the GPU multiplies every entry by c.", "quantifier": "all tensors and factors", "why_tests_cant": "Needs a GPU.", "anchors": ["tensors/TensorView.hpp:486-501"]}
{"id": "C464", "title": "Making a tensor zero on the GPU", "statement": "set_zero() on the GPU makes every entry of a tensor without gaps zero and changes nothing else; on every tensor it does what the CPU does.", "quantifier": "all shapes, strides and contents", "why_tests_cant": "Needs a GPU.", "anchors": ["tensors/TensorView.hpp:469-484"]}
{"id": "C465", "title": "Adding tensors without gaps on the GPU", "statement": "r.add(x) of float or double tensors on the GPU with the same strides and no gaps adds entry by entry and changes nothing else; different shapes are refused.", "quantifier": "all shapes, strides without gaps and contents; operands share no cell or only at equal positions", "why_tests_cant": "Strides in any order; needs a GPU.", "anchors": ["tensors/functions/TensorView_add.hpp:32-76"]}
{"id": "C466", "title": "Columns times numbers on the GPU", "statement": "add_scale_columns(x,y) and add_mul_columns(x,y) on the GPU add x(i,j)*y(j) to r(i,j).", "quantifier": "all sizes and contents", "why_tests_cant": "Needs a GPU.", "anchors": ["tensors/TensorView.hpp:636-680"]}
{"id": "C467", "title": "Adding a vector to every row on the GPU", "statement": "add_broadcast0(x,alpha) on the GPU adds alpha*x to every row and changes nothing else, for neighbouring entries in rows; a vector of another length is refused.", "quantifier": "all sizes with at least one column, row strides, factors and contents", "why_tests_cant": "A batch of outer products with a vector of one entry; needs a GPU.", "anchors": ["tensor_views/Rtensor2_view.hpp:534-553"]}
{"id": "C468", "title": "Adding complex matrices on the GPU", "statement": "add(x) of regular complex matrices on the GPU adds every entry.", "quantifier": "all sizes and contents", "why_tests_cant": "The number of floats is twice the number of entries; needs a GPU.", "anchors": ["tensor_views/Ctensor2_view.hpp:129-147", "tensor_views/Ctensor3_view.hpp:143-160"]}
{"id": "C469", "title": "Sums of old-backend tensors on the GPU", "statement": "On the GPU `add(x)`, `add(x,c)`, `subtract(x)`, `add_sum(v)`, `add_plus(x,y)` and `add_minus(x,y)` of the old backend add to every entry of the result the entry of the operand (times c, negated, summed over the list, or both operands in turn), change nothing else, and refuse operands of another total size.  The operand may be the result itself except in the list and for the second operand of the last two.", "quantifier": "all shapes, all contents, all memories, all scalars, all lists of operands", "why_tests_cant": "each call goes through a library with its own aliasing rules and sizes; tests on a machine without a GPU never run these branches", "anchors": ["legacy/backendA/RtensorA.hpp:2044-2076", "legacy/backendA/RtensorA.hpp:2115-2185"]}
{"id": "C470", "title": "add_minus with the result as second operand on the GPU", "statement": "`r.add_minus(x,r)` leaves the same tensor on the GPU as on the CPU.", "quantifier": "all shapes and contents", "why_tests_cant": "needs a GPU and an aliased call", "anchors": ["legacy/backendA/RtensorA.hpp:2168-2185"]}
{"id": "C471", "title": "Scaling an old-backend tensor in place on the GPU", "statement": "`inplace_times(c)` multiplies every entry by c on the GPU.", "quantifier": "all shapes, contents and scalars", "why_tests_cant": "needs a GPU", "anchors": ["legacy/backendA/RtensorA.hpp:1783-1794"]}
{"id": "C472", "title": "Norm and inner product of old-backend tensors on the GPU", "statement": "`norm2()` and `inp(x)` on the GPU return the sum over all index tuples of the products of entries; `inp` refuses another total size.", "quantifier": "all shapes and contents, the two tensors may overlap in any way", "why_tests_cant": "sums over all index tuples of tensors of any rank", "anchors": ["legacy/backendA/RtensorA.hpp:1948-1975"]}
{"id": "C473", "title": "Matrix products of old-backend tensors on the GPU", "statement": "`add_Mprod_AA`, `add_Mprod_AT` and `add_Mprod_TA` on the GPU leave exactly the memory the CPU loops leave, which is the sum over the contracted indices added to every entry of the result and nothing else changed.", "quantifier": "all ranks, all splits of the axes, all contents, empty tensors included", "why_tests_cant": "the library is called with column-major matrices, so that every size, leading dimension and transposition flag is swapped with respect to the loops; a wrong one shows only on non-square shapes", "anchors": ["legacy/backendA/RtensorA.hpp:2375-2530"]}
{"id": "C474", "title": "Adding a transpose on the GPU", "statement": "`add_transp(x,n)` of the old backend adds on the GPU the transpose of x, split after n axes, and changes nothing else; another total size is refused.", "quantifier": "all shapes without an empty axis, all splits, all contents", "why_tests_cant": "sizes and leading dimensions are swapped with respect to the loops; only non-square shapes tell", "anchors": ["legacy/backendA/RtensorA.hpp:2187-2206"]}
{"id": "C475", "title": "Transpose of an old-backend tensor on the GPU", "statement": "`transp(n)` and `transpp(n)` return on the GPU the same matrix as on the CPU.", "quantifier": "all shapes without an empty axis, all splits, all contents", "why_tests_cant": "needs a GPU and a shape that is not square", "anchors": ["legacy/backendA/RtensorA.hpp:1816-1852"]}
{"id": "C476", "title": "Filled complex tensors of the old backend", "statement": "The constructors of `CtensorA` with fill `raw`, `zero`, `ones`, `sequential`, and from a function of each number of another tensor, make a tensor with the given sizes at new memory whose two arrays (real and imaginary parts) do not overlap, with the stated number at each index, and change no other memory; no sizes at all are undefined.", "quantifier": "all shapes with at least one axis, all memories, all places of the new block", "why_tests_cant": "shapes, and memory contents outside the block, are unbounded", "anchors": ["legacy/backendA/CtensorA.hpp:104-127", "legacy/backendA/CtensorA.hpp:263-277", "legacy/backendA/CtensorA.hpp:288-308", "legacy/backendA/CtensorA.hpp:335-343"]}
{"id": "C477", "title": "Identity of complex tensors of the old backend", "statement": "The fill `identity` makes an identity matrix, and for more than two axes a stack of identity matrices.", "quantifier": "all shapes whose last two sizes agree", "why_tests_cant": "only stacks show the failure", "anchors": ["legacy/backendA/CtensorA.hpp:279-286"]}
{"id": "C478", "title": "Views and reshaping of complex tensors of the old backend", "statement": "A view stands for the same numbers at the same place; `reshape` with the same total size gives the same numbers in row-major order without changing memory, and is refused for a different total.", "quantifier": "all shapes, all contents", "why_tests_cant": "shapes are unbounded", "anchors": ["legacy/backendA/CtensorA.hpp:218-229", "legacy/backendA/CtensorA.hpp:412-419"]}
{"id": "C479", "title": "Moving and assigning complex tensors of the old backend", "statement": "Moving or assigning a tensor leaves the target with both arrays of the source, and releases the old arrays properly.", "quantifier": "all pointers", "why_tests_cant": "the lost pointer shows only when imaginary parts are read; wrong `delete` often goes unnoticed", "anchors": ["legacy/backendA/CtensorA.hpp:421-431", "legacy/backendA/CtensorA.hpp:440-492"]}
{"id": "C480", "title": "Access to single complex numbers of old-backend tensors", "statement": "`get`, `set` and `inc`, with an index or with one to three numbers, read or change exactly the number at that index; the wrong number of integers is refused.", "quantifier": "all shapes, all indices in range, all contents", "why_tests_cant": "indices and shapes are unbounded", "anchors": ["legacy/backendA/CtensorA.hpp:711-939"]}
{"id": "C481", "title": "Elementwise operations of complex tensors of the old backend", "statement": "`set_zero`, `add`, `add(x,c)`, `add_divide`, `add_conj(x)`, `subtract`, `add_plus`, `add_minus`, multiplication in place by a complex number, `add_ReLU` and `add_ReLU_back` with slope do at each index what they say, and leave other memory alone; sums and differences also work when the operand is the tensor itself, and different totals are refused.", "quantifier": "all shapes, all contents, operands apart or (where stated) the same", "why_tests_cant": "real and imaginary parts are separate arrays walked by separate loops; sizes are unbounded", "anchors": ["legacy/backendA/CtensorA.hpp:1171-1209", "legacy/backendA/CtensorA.hpp:1494-1573", "legacy/backendA/CtensorA.hpp:1608-1624", "legacy/backendA/CtensorA.hpp:1642-1646", "legacy/backendA/CtensorA.hpp:1680-1726", "legacy/backendA/CtensorA.hpp:2191-2205", "legacy/backendA/CtensorA.hpp:2218-2227"]}
{"id": "C482", "title": "Conjugates, norms and aliasing of complex tensors of the old backend", "statement": "`add(x,c)` is right when x is the tensor itself, `add_conj(x,c)` adds c times the conjugate of x, `add_ReLU_back` without slope treats both parts alike, and `norm2` is the sum of the squared absolute values.", "quantifier": "all shapes, all contents", "why_tests_cant": "each is right for some simple inputs (real numbers, or c without imaginary part)", "anchors": ["legacy/backendA/CtensorA.hpp:1424-1430", "legacy/backendA/CtensorA.hpp:1527-1537", "legacy/backendA/CtensorA.hpp:1582-1606", "legacy/backendA/CtensorA.hpp:2207-2216"]}
{"id": "C483", "title": "Inner products of complex tensors of the old backend", "statement": "`inp` returns the sum over all indices of the product of one number with the conjugate of the other, refuses different totals, and `add_inp_into` adds it.", "quantifier": "all shapes, all contents", "why_tests_cant": "sizes are unbounded", "anchors": ["legacy/backendA/CtensorA.hpp:1443-1456", "legacy/backendA/CtensorA.hpp:1790-1813"]}
{"id": "C484", "title": "Copies and sums of complex tensors of the old backend", "statement": "Copies, `set`, assignment to a view, sums of two tensors or of a list, the conjugate and a matrix given by a function have at each index the stated number; copies are at new memory and the operands keep their contents.", "quantifier": "all shapes, all contents, operands apart from the target", "why_tests_cant": "shapes and lists are unbounded", "anchors": ["legacy/backendA/CtensorA.hpp:185-199", "legacy/backendA/CtensorA.hpp:327-333", "legacy/backendA/CtensorA.hpp:358-397", "legacy/backendA/CtensorA.hpp:440-456", "legacy/backendA/CtensorA.hpp:1219-1242", "legacy/backendA/CtensorA.hpp:1343-1347", "legacy/backendA/CtensorA.hpp:1478-1485", "legacy/backendA/CtensorA.hpp:1655-1669"]}
{"id": "C485", "title": "Chunks and slices of complex tensors of the old backend", "statement": "`add_to_chunk`, `set_chunk`, `chunk`, `add_to_slice`, `add_to_slices`, `add_slice_of` and `slice` combine exactly the entries of the chosen part of one axis with the corresponding entries of the other tensor, for real and imaginary parts.", "quantifier": "all shapes with a nonempty rest, all axes, all offsets in range, all contents, operands apart", "why_tests_cant": "offsets from strides in three loops over two arrays", "anchors": ["legacy/backendA/CtensorA.hpp:945-1006", "legacy/backendA/CtensorA.hpp:1036-1060", "legacy/backendA/CtensorA.hpp:1066-1165"]}
{"id": "C486", "title": "add_chunk_of for complex tensors of the old backend", "statement": "`add_chunk_of(x,ix,offs,n)` adds entries offs to offs+n-1 of an axis of x to the first n entries of that axis, and touches nothing else.", "quantifier": "all shapes, all offsets in range", "why_tests_cant": "right when both axes have the same length", "anchors": ["legacy/backendA/CtensorA.hpp:1009-1033"]}
{"id": "C487", "title": "Transposes of complex tensors of the old backend", "statement": "`transp` and `herm` return the matrix (or its conjugate) with the axes from n on as rows and the first n axes as columns; `add_transp` and `add_herm` add it.", "quantifier": "all shapes without an empty axis, all splits, all contents, operands apart", "why_tests_cant": "shapes are unbounded", "anchors": ["legacy/backendA/CtensorA.hpp:1253-1330", "legacy/backendA/CtensorA.hpp:1737-1774"]}
{"id": "C488", "title": "Unusual sizes in slices and transposes of complex tensors", "statement": "Transposes of an empty tensor, and slices with an index out of range, are either right or refused.", "quantifier": "all shapes, all indices", "why_tests_cant": "empty tensors and indices just past the end are rarely tried", "anchors": ["legacy/backendA/CtensorA.hpp:1145-1165", "legacy/backendA/CtensorA.hpp:1253-1263", "legacy/backendA/CtensorA.hpp:1297-1307"]}
{"id": "C489", "title": "Matrix products of complex tensors of the old backend", "statement": "`add_Mprod_AA`, `add_Mprod_AT` and `add_Mprod_TA`, with neither, the first, the second or both factors conjugated, add at each index the sum over the contracted axes of the products; empty products add nothing.", "quantifier": "all shapes, any number of contracted axes, all contents, operands apart, all four choices of conjugation", "why_tests_cant": "three loops over six arrays, with four variants of signs", "anchors": ["legacy/backendA/CtensorA.hpp:1970-2010", "legacy/backendA/CtensorA.hpp:2043-2084", "legacy/backendA/CtensorA.hpp:2117-2159"]}
{"id": "C490", "title": "Cell maps apply a cell operation cell by cell, or to all pairs of cells", "statement": "CellwiseCmap sets (or adds to) cell i of the result from cell i of both arguments, and OuterCmap does so for all pairs in row-major order; no other cell changes, arrays of different size are refused, and CtensorA_plus_cop is a cell operation of the required kind.", "quantifier": "for all arrays of cells, all cell operations that meet the stated contract, both values of add_flag", "why_tests_cant": "Needs all array shapes and all operations.", "anchors": ["legacy/tensor_array/cell_maps/CellwiseCmap.hpp", "legacy/tensor_array/cell_maps/OuterCmap.hpp", "legacy/tensor_array/cell_ops/CtensorA_plus_cop.hpp"]}
{"id": "C491", "title": "Cell maps of include/Cmaps.hpp add cell by cell, with one side repeated, or over all pairs", "statement": "CellwiseBiCmap, BroadcastLeftBiCmap, BroadcastRightBiCmap, OuterBiCmap and BroadcastUCmap add the operation's result to exactly the cells their names say and change no other cell.", "quantifier": "for all arrays of cells with matching sizes that do not overlap the result, all adding cell operations", "why_tests_cant": "Needs all array shapes and all operations.", "anchors": ["include/Cmaps.hpp"]}
{"id": "C492", "title": "InnerBiCmap and MprodBiCmap on the CPU sum over cells", "statement": "InnerBiCmap adds the sum over i of op(x_i,y_i) to one cell; MprodBiCmap adds the sum over j of op(x_ij,y_j) to cell i.", "quantifier": "for all arrays of matching sizes, all adding operations into a commutative monoid", "why_tests_cant": "Sums of any length.", "anchors": ["include/Cmaps.hpp"]}
{"id": "C493", "title": "MVprodCmap on the CPU is a matrix-vector product of cells", "statement": "For every row i the result cell is set to (or increased by) the sum over j of op(x_ij,y_j); with no columns and add_flag false nothing is set.", "quantifier": "for all numbers of rows and columns, both flags, all cell operations", "why_tests_cant": "Sums of any length.", "anchors": ["legacy/tensor_array/cell_maps/MVprodCmap.hpp"]}
{"id": "C494", "title": "VMprodCmap on the CPU is a vector-matrix product of cells", "statement": "For every column i the result cell is set to (or increased by) the sum over j of op(x_j,y_ji).", "quantifier": "for all numbers of rows and columns, both flags", "why_tests_cant": "Sums of any length; the empty sum is not set to zero.", "anchors": ["legacy/tensor_array/cell_maps/VMprodCmap.hpp"]}
{"id": "C495", "title": "InnerCmap is an inner product of cells", "statement": "The result cell is set to (or increased by) the sum over i of op(x_i,y_i), on the CPU and on the GPU.", "quantifier": "for all lengths, both flags, both devices", "why_tests_cant": "The error only shows with add_flag false and the GPU branch is commented out.", "anchors": ["legacy/tensor_array/cell_maps/InnerCmap.hpp"]}
{"id": "C496", "title": "Convolve2Cmap and Convolve2BiCmap on the CPU are 2-D convolutions of cells", "statement": "Result cell (i0,i1) is increased by the sum over (j0,j1) of op(x(i0+j0,i1+j1),y(j0,j1)); sizes that do not fit are refused.", "quantifier": "for all sizes of the three arrays, all adding operations", "why_tests_cant": "Sums over two indices of any range.", "anchors": ["legacy/tensor_array/cell_maps/Convolve2Cmap.hpp", "include/Cmaps.hpp"]}
{"id": "C497", "title": "Convolve1BiCmap is a 1-D convolution of cells", "statement": "With x as long as r and y together less one, result cell i is increased by the sum over j of op(x_(i+j),y_j).", "quantifier": "for all lengths", "why_tests_cant": "The size check is wrong for every input, which only a statement about all sizes shows.", "anchors": ["include/Cmaps.hpp"]}
{"id": "C498", "title": "Unary and broadcast cell maps and masks do what they say", "statement": "CellwiseUCmap works on arrays on the CPU; BroadcastBinaryCmap reads the cell it was given; CellMask2r accepts a first pair, and the accumulator sums with and without add_flag.", "quantifier": "for all arrays, masks and operations", "why_tests_cant": "Code paths that always throw or read an unset pointer are never reached by a passing test.", "anchors": ["include/Cmaps.hpp", "legacy/tensor_array/cell_maps/BroadcastBinaryCmap.hpp", "legacy/tensor_array/CellMask2r.hpp"]}
{"id": "C499", "title": "On the GPU, CellwiseCmap and OuterCmap with CtensorA_plus give the CPU's result under every schedule", "statement": "Every run of the launched kernel ends with the real and imaginary parts of each result cell set to (or increased by) the sum of the two argument cells, and no other float changed.", "quantifier": "for all array sizes within the launch limits, both flags, all interleavings of the threads", "why_tests_cant": "Interleavings of threads cannot be enumerated by tests.", "anchors": ["legacy/tensor_array/cell_ops/CtensorA_plus_cop.hpp", "legacy/tensor_array/cell_maps/CellwiseCmap.hpp", "legacy/tensor_array/cell_maps/OuterCmap.hpp"]}
{"id": "C500", "title": "The accumulating kernel gives the sums of MVprodCmap, VMprodCmap and Convolve2Cmap under every schedule", "statement": "Were CtensorA_plus_accumulator_kernel launched with the maps' n_accum, target and source functions, every run would end with the sums the CPU branches compute.", "quantifier": "for all sizes within the launch limits, all interleavings", "why_tests_cant": "Interleavings of threads cannot be enumerated by tests.", "anchors": ["legacy/tensor_array/cell_ops/CtensorA_plus_cop.hpp", "legacy/tensor_array/cell_maps/MVprodCmap.hpp", "legacy/tensor_array/cell_maps/VMprodCmap.hpp", "legacy/tensor_array/cell_maps/Convolve2Cmap.hpp"]}
{"id": "C501", "title": "The table of a CellMask2r gives back its lists, and accumulating over a mask sums each list into its target", "statement": "From the array that prepare() writes, the lookups return for every block its target, its number of pairs, and every pair; on the CPU with add_flag each target is increased by the sum over its list.", "quantifier": "for all masks with distinct targets, all pairs, all operations", "why_tests_cant": "Needs masks of any size.", "anchors": ["legacy/tensor_array/CellMask2r.hpp"]}
{"id": "C502", "title": "CtensorA_add_plus_cop on the GPU adds both arguments", "statement": "Every run ends with x+y added to the real and to the imaginary parts of the result cells, also when several blocks add to one cell.", "quantifier": "for all array sizes and interleavings", "why_tests_cant": "The imaginary part is wrong for every input; the lost addition needs a particular schedule.", "anchors": ["cuda/CtensorA_add_plus.cu", "include/Cmaps.hpp"]}
{"id": "C503", "title": "Cell maps that sum do so on the GPU too", "statement": "MVprodCmap, VMprodCmap, Convolve2Cmap and Convolve2BiCmap give the same result on the GPU as on the CPU.", "quantifier": "for all arrays on the GPU", "why_tests_cant": "Branches that are commented out or whose launch is refused return silently.", "anchors": ["legacy/tensor_array/cell_maps/MVprodCmap.hpp", "legacy/tensor_array/cell_maps/VMprodCmap.hpp", "legacy/tensor_array/cell_maps/Convolve2Cmap.hpp", "include/Cmaps.hpp"]}
{"id": "C504", "title": "Column functions of CtensorA add what they say to each entry", "statement": "add_col_norms adds to the real part of each number the norm of its column; add_divide_cols and add_divide_cols_back0 add columns divided by a number; add_col_norms_back adds columns times G/N; add_divide_cols_back1 adds to each number minus the sum over its column of G times conj(X), over the square of N. Nothing else changes.", "quantifier": "for all leading axes, numbers of rows and columns, contents, and tensors that do not share cells", "why_tests_cant": "Blocks, rows and columns of any number and tensors of any order.", "anchors": ["legacy/backendA/CtensorA.hpp"]}
{"id": "C505", "title": "divide_cols of a CtensorA gives each column divided by its number, and columns divided by their norms have norm 1", "statement": "divide_cols returns a fresh tensor with every column divided by the real part of its number and leaves the old memory alone. If the numbers are norms of the columns and not zero, the columns of the result have norm 1.", "quantifier": "for all leading axes, numbers of rows and columns, contents", "why_tests_cant": "Needs shapes of any size and exact arithmetic.", "anchors": ["legacy/backendA/CtensorA.hpp"]}
{"id": "C506", "title": "for_each_batch_multi handles each batch once with matching slices, and dominant_batch returns the common number of batches", "statement": "If this tensor has one batch or as many as x, the function is called once for each batch of x, with the slices that belong to it, whatever the threads do; the memory is the one these calls leave. dominant_batch returns b exactly when each number is b or 1 and b is one of them, and throws otherwise.", "quantifier": "for all numbers of batches, functions, numbers of threads and interleavings of threads", "why_tests_cant": "Order of finishing threads cannot be controlled by a test.", "anchors": ["tensors/BatchedTensor.hpp"]}
{"id": "C507", "title": "for_each_batch_multi with one batch on the other side calls the function once for each batch", "statement": "If x has one batch and this tensor several, the function is called once for each batch of this tensor with slice 0 of x.", "quantifier": "for all numbers of batches and functions", "why_tests_cant": "A function that overwrites its result hides the second call; slices outside of x may be readable.", "anchors": ["tensors/BatchedTensor.hpp"]}
{"id": "C508", "title": "normalize_cols of a CtensorA divides each column by its norm", "statement": "normalize_cols returns a copy in which each column has been divided by its norm.", "quantifier": "for all shapes and contents", "why_tests_cant": "For a tensor of one row or tensors whose rows and columns have equal norms the result is right.", "anchors": ["legacy/backendA/CtensorA.hpp"]}
{"id": "C509", "title": "Sums of CtensorA on the GPU", "statement": "add(x), add(x,c) with real and complex c, add_conj(x), subtract, add_sum, add_plus, add_minus and conj on the GPU do at each index what they say and leave other memory alone; sums with one operand also work when the operand is the tensor itself; other totals are refused.", "quantifier": "for all shapes, contents, numbers and lists of tensors", "why_tests_cant": "Needs all sizes; there is no GPU in the tests.", "anchors": ["legacy/backendA/CtensorA.hpp"]}
{"id": "C510", "title": "add_conj(x,c) of CtensorA gives the same on the GPU as on the CPU", "statement": "add_conj(x,c) adds c times the conjugate of x, on the GPU as on the CPU.", "quantifier": "for all shapes, contents and numbers", "why_tests_cant": "Real factors and real tensors hide the difference.", "anchors": ["legacy/backendA/CtensorA.hpp"]}
{"id": "C511", "title": "inplace_times of CtensorA on the GPU multiplies each entry", "statement": "After inplace_times(c) on the GPU each entry is c times what it was.", "quantifier": "for all shapes, contents and numbers", "why_tests_cant": "There is no GPU in the tests.", "anchors": ["legacy/backendA/CtensorA.hpp"]}
{"id": "C512", "title": "Matrix products of CtensorA on the GPU", "statement": "add_Mprod_AA, add_Mprod_AT and add_Mprod_TA on the GPU, each four calls of gemm, add the sums of products over the contracted axes, with neither, the first, the second or both factors conjugated as the template argument says; the calls meet the contract of gemm.", "quantifier": "for all groups of axes, contents and the four conjugations", "why_tests_cant": "Sizes, groupings of axes and leading dimensions cannot be enumerated; the signs differ between four cases.", "anchors": ["legacy/backendA/CtensorA.hpp"]}
{"id": "C513", "title": "Added transposes of CtensorA on the GPU", "statement": "add_transp and add_herm on the GPU add the transpose and the conjugate transpose; other totals are refused.", "quantifier": "for all groups of axes and contents", "why_tests_cant": "Sizes and groupings of axes cannot be enumerated.", "anchors": ["legacy/backendA/CtensorA.hpp"]}
{"id": "C514", "title": "Transposes of CtensorA on the GPU have the shape of a transpose", "statement": "transp and herm on the GPU return the matrix that has the first axes as columns.", "quantifier": "for all shapes", "why_tests_cant": "Square matrices hide the difference.", "anchors": ["legacy/backendA/CtensorA.hpp"]}
{"id": "C515", "title": "New arrays of tensors of the old backend", "statement": "Constructors of RtensorArrayA (raw, zeros, ones, random, sequential, every tensor a copy of one) give an array with the sizes asked for, each tensor padded to a multiple of 32 numbers, holding zeros, the numbers drawn (different draws for different entries), the numbers counted through tensor after tensor, or the copies; nothing else changes. With no axes for the array or none for the tensors a stride outside the vector is used.", "quantifier": "all sizes, all memories", "why_tests_cant": "padding between tensors, sizes with zeros and all lists of axes must be covered", "anchors": ["legacy/backendA/RtensorArrayA.hpp:93-233"]}
{"id": "C516", "title": "Tensors of an array", "statement": "cell(i), cell(i,j), cell(aix) are views of the tensor at the index; tensors at different indices share no memory; copy_cell_into, add_cell_into, set_cell, add_to_cell read or change exactly the tensor at the index.", "quantifier": "all arrays, indices and memories", "why_tests_cant": "the tensors share one buffer and a wrong stride is visible only for some sizes", "anchors": ["legacy/backendA/RtensorArrayA.hpp:525-669"]}
{"id": "C517", "title": "get_cell gives the tensor at the index", "statement": "get_cell(aix) returns the tensor at the index.", "quantifier": "all arrays and indices", "why_tests_cant": "whether memory is overrun depends on the number of entries", "anchors": ["legacy/backendA/RtensorArrayA.hpp:518-523"]}
{"id": "C518", "title": "An array from one tensor has this tensor", "statement": "RtensorArrayA(x) is an array with one tensor, equal to x; add_broadcast(y) and subtract_broadcast(y), which use it, add or subtract y.", "quantifier": "all tensors", "why_tests_cant": "small tensors fit by accident into the rounding", "anchors": ["legacy/backendA/RtensorArrayA.hpp:236-240", "legacy/backendA/RtensorArrayA.hpp:1251-1259"]}
{"id": "C519", "title": "Arrays from a function, broadened and reduced arrays have the right sizes", "statement": "The constructor from a function calls it for each entry; broaden(ix,n) and reduce(ix) make arrays of tensors with the sizes of the tensors of the array.", "quantifier": "all sizes and functions", "why_tests_cant": "sizes become negative, which shows only when they are looked at", "anchors": ["legacy/backendA/RtensorArrayA.hpp:255-282", "legacy/backendA/RtensorArrayA.hpp:974-983"]}
{"id": "C520", "title": "Copies and views of arrays of tensors", "statement": "A copy has the same tensors in memory of its own and the original is unchanged; a view has the same tensors in the same memory.", "quantifier": "all arrays and memories", "why_tests_cant": "aliasing between copy and original for all sizes", "anchors": ["legacy/backendA/RtensorArrayA.hpp:288-345", "legacy/backendA/RtensorArrayA.hpp:435-438"]}
{"id": "C521", "title": "One tensor for all tensors of an array; sums of arrays", "statement": "broadcast_copy(x) makes every tensor equal to x; broadcast_add(x) and broadcast_subtract(x) add or subtract x; plus(y) and minus(y) give the sum or difference in a new array.", "quantifier": "all arrays, tensors and memories", "why_tests_cant": "all positions of all tensors and the padding", "anchors": ["legacy/backendA/RtensorArrayA.hpp:988-995", "legacy/backendA/RtensorArrayA.hpp:1052-1075", "legacy/backendA/RtensorArrayA.hpp:1215-1231"]}
{"id": "C522", "title": "Copies and views know their number of axes", "statement": "In a copy or view of an array the tensors can be looked at as in the original, and as_arrayshape works.", "quantifier": "all arrays", "why_tests_cant": "an uninitialised member may happen to be right", "anchors": ["legacy/backendA/RtensorArrayA.hpp:288-345", "legacy/backendA/RtensorArrayA.hpp:435-438", "legacy/backendA/RtensorArrayA.hpp:713-716"]}
{"id": "C523", "title": "Another shape for the array", "statement": "change_arrayshape(adims) keeps the tensors, in order, under the new sizes.", "quantifier": "all arrays and all sizes with the same product", "why_tests_cant": "the fault depends on two numbers of axes", "anchors": ["legacy/backendA/RtensorArrayA.hpp:692-711"]}
{"id": "C524", "title": "Multiplying each tensor by a number", "statement": "inplace_scatter_times(C) multiplies the tensor at each index by the entry of C there.", "quantifier": "all arrays and tensors C of the same sizes", "why_tests_cant": "all indices", "anchors": ["legacy/backendA/RtensorArrayA.hpp:1178-1192"]}
{"id": "C525", "title": "Dividing each tensor by a number, and adding multiples", "statement": "inplace_scatter_div(C) divides the tensor at each index by the entry of C; scatter_add_times_c(x,C), scatter_add_div_c(x,C) add multiples of the tensors of x.", "quantifier": "all arrays", "why_tests_cant": "division and multiplication agree for entries 1", "anchors": ["legacy/backendA/RtensorArrayA.hpp:897-902", "legacy/backendA/RtensorArrayA.hpp:1166-1209"]}
{"id": "C526", "title": "Products of arrays of tensors", "statement": "add_Mprod_AA, add_Mprod_AT add at each index the product of the tensors there, and broadcast_add_Mprod_AA, broadcast_add_Mprod_AT the product with one tensor; cell_combined_size(a,b) is the product of the sizes.", "quantifier": "all sizes, all split points of the axes, all semirings", "why_tests_cant": "strides and combined sizes for all shapes", "anchors": ["legacy/backendA/RtensorArrayA.hpp:505-512", "legacy/backendA/RtensorArrayA.hpp:1237-1351"]}
{"id": "C527", "title": "Products with one tensor on the GPU", "statement": "On the GPU broadcast_add_Mprod_AA adds the product at each index.", "quantifier": "all arrays", "why_tests_cant": "right for arrays with one tensor", "anchors": ["legacy/backendA/RtensorArrayA.hpp:1298-1306"]}
{"id": "C528", "title": "One tensor for all tensors on the GPU", "statement": "On the GPU broadcast_copy(x), which copies ever larger blocks, makes every tensor equal to x and changes nothing else.", "quantifier": "all arrays", "why_tests_cant": "the number of tensors need not be a power of two", "anchors": ["legacy/backendA/RtensorArrayA.hpp:988-1009"]}
{"id": "C529", "title": "Copies and sums along an axis of an array", "statement": "broadcast_copy(ix,x) and broadcast_add(ix,x) copy or add x to each slice of the array along axis ix.", "quantifier": "all sizes, all axes", "why_tests_cant": "all positions of the axis and all sizes", "anchors": ["legacy/backendA/RtensorArrayA.hpp:1011-1032", "legacy/backendA/RtensorArrayA.hpp:1078-1100"]}
{"id": "C530", "title": "Sums along an axis of an array", "statement": "add_reduce(x,ix) adds the sums of x along axis ix of the array.", "quantifier": "all sizes without zeros, all axes", "why_tests_cant": "all positions of the axis and all sizes", "anchors": ["legacy/backendA/RtensorArrayA.hpp:1120-1143"]}
{"id": "C531", "title": "Hash of a tensor depends on what it shows", "statement": "The hash of a tensor is computed from its sizes and its entries in row-major order; tensors of equal sizes and entries have equal hashes, whatever their strides.", "quantifier": "all ranks, sizes, strides and entries, any hash of the elements", "why_tests_cant": "all combinations of memory layouts of two equal tensors", "anchors": ["tensors/TensorView.hpp:812-827", "include/Gdims.hpp:523-531", "tensors/Ltensor.hpp:1024-1038"]}
{"id": "C532", "title": "The hash sees only the last 63 entries", "statement": "Two tensors with at least 64 entries each whose last 63 entries agree have the same hash, whatever their sizes and other entries: each step shifts the 64 bits by one.", "quantifier": "all tensors of at least 64 entries, any hash of the elements", "why_tests_cant": "a collision of two particular tensors shows nothing about all others", "anchors": ["tensors/TensorView.hpp:812-827"]}
{"id": "C533", "title": "Equal tensors have equal hashes", "statement": "If v==w then the hashes of v and w are equal.", "quantifier": "all tensors", "why_tests_cant": "all combinations of memory layouts", "anchors": ["tensors/TensorView.hpp:812-827", "tensors/TensorView.hpp:430-437"]}
{"id": "C534", "title": "Views of fixed order of a tensor", "statement": "view1(), view2() and view3() see exactly the entries of a tensor with one, two or three axes and refuse any other number of axes.", "quantifier": "all sizes and strides", "why_tests_cant": "all sizes and strides", "anchors": ["tensors/TensorView.hpp:282-313", "tensors/TensorView.hpp:774-794"]}
{"id": "C535", "title": "Complex views of fixed order of a tensor", "statement": "The views with separate pointers to real and imaginary parts of a complex tensor see its entries, with doubled strides.", "quantifier": "all sizes, strides and entries", "why_tests_cant": "all sizes and strides", "anchors": ["tensors/TensorView.hpp:778-799"]}
{"id": "C536", "title": "Flat view of a tensor", "statement": "flat_view() of a contiguous tensor without broadcast axes sees every entry exactly once, in row-major order if the tensor is regular, and refuses tensors that are not contiguous.", "quantifier": "all ranks, sizes and strides", "why_tests_cant": "all permutations of axes", "anchors": ["tensors/TensorView.hpp:315-317", "tensors/TensorView.hpp:801-803"]}
{"id": "C537", "title": "Random unitary matrices are unitary", "statement": "The rows, and the columns, of the result of random_unitary are of length one and orthogonal to each other, for real and complex numbers, whenever no vector drawn is a combination of those before it; other shapes than square matrices are refused.", "quantifier": "all sizes, all linearly independent draws, all places of temporaries", "why_tests_cant": "a test samples a few draws and sizes; this holds for all", "anchors": ["tensors/TensorView_constructors.hpp:144-159"]}
{"id": "C538", "title": "Unitary error of a real matrix", "statement": "unitary_error() of a square real matrix is the square root of the sum of squares of the entries of X*transp(X)-1, and zero exactly when the rows are orthonormal.", "quantifier": "all sizes, strides and entries", "why_tests_cant": "all matrices", "anchors": ["tensors/TensorView_scalar_ops.inc:181-188"]}
{"id": "C539", "title": "Normalizing a tensor", "statement": "normalize() divides every entry by the square root of the sum of squares, after which the sum of squares is 1; nothing else changes.", "quantifier": "all ranks, sizes, strides and entries that are not all zero", "why_tests_cant": "all tensors", "anchors": ["tensors/TensorView.hpp:502-504", "tensors/TensorView_scalar_ops.inc:127-131"]}
{"id": "C540", "title": "Largest absolute value", "statement": "max_abs() is the largest of the absolute values of the entries, and 0 if there are none, although the search starts with an entry and not with its absolute value.", "quantifier": "all ranks, sizes, strides without broadcast axes, all entries", "why_tests_cant": "all positions and signs of the largest entry", "anchors": ["tensors/TensorView_scalar_ops.inc:41-53"]}
{"id": "C541", "title": "Unitary error of a complex matrix", "statement": "unitary_error() of a complex matrix is zero exactly when its rows are orthonormal.", "quantifier": "all square complex matrices", "why_tests_cant": "all matrices", "anchors": ["tensors/TensorView_scalar_ops.inc:181-188"]}
{"id": "C542", "title": "Outer products of complex tensors on the GPU", "statement": "add_expand_2 on the GPU adds x[i0,i1,i3]*y[i1,i2,i3] to every entry, whatever the order of the threads.", "quantifier": "all sizes, strides, entries and thread orders", "why_tests_cant": "thread orders and launch limits cannot be enumerated", "anchors": ["cuda/BasicCtensorProducts.cu:25-82", "cuda/BasicCtensorProducts.cu:160-193", "tensor_views/Ctensor4_view.hpp:145-157"]}
{"id": "C543", "title": "Contractions of complex tensors on the GPU", "statement": "add_contract_aib_aib_ab_to on the GPU adds the sums over the middle index of the products, whatever the order of the threads.", "quantifier": "all sizes, strides, entries and thread orders", "why_tests_cant": "thread orders and launch limits cannot be enumerated", "anchors": ["cuda/BasicCtensorProducts.cu:84-129", "cuda/BasicCtensorProducts.cu:196-220", "tensor_views/Ctensor3_view.hpp:263-274"]}
{"id": "C544", "title": "Elementwise complex products on the GPU", "statement": "Ctensor2_add_otimes_cu and Ctensor2_add_otimesc_cu add c times the product, or the product with the conjugate, to every entry.", "quantifier": "all matrices, strides, factors and thread orders", "why_tests_cant": "thread orders cannot be enumerated", "anchors": ["cuda/BasicCtensorProducts.cu:131-155", "cuda/BasicCtensorProducts.cu:223-239"]}
{"id": "C545", "title": "Weighted sums of rows of complex matrices on the GPU", "statement": "The GPU accumulator adds to every row listed in a mask the weighted sum of the rows the mask assigns to it, and changes nothing else.", "quantifier": "all masks, matrices, weights and thread orders", "why_tests_cant": "all masks and thread orders", "anchors": ["cuda/TensorView_accumulators.cu:29-89", "include/Rmask1.hpp:139-152"]}
{"id": "C546", "title": "Rectified units of packs", "statement": "add_ReLU and add_ReLU_back of packs add the rectified values (gradients) to the pack, on the CPU and on the GPU, for every length.", "quantifier": "all packs, slopes and thread orders", "why_tests_cant": "all lengths and thread orders", "anchors": ["cuda/RtensorPackUtils.cu:30-68", "legacy/tensor/RtensorPack.hpp:586-599"]}
{"id": "C547", "title": "Sizes of matrix products", "statement": "Mprod, Mprod_AT, Mprod_TA and Mprod_TT of two lists of sizes give the sizes of both without the axis of each that is summed over; with a list without axes they throw or run out of the vector.", "quantifier": "all lists of sizes", "why_tests_cant": "all lengths and sizes", "anchors": ["include/Gdims.hpp:249-275"]}
{"id": "C548", "title": "Sizes of products of matrices with vectors", "statement": "mvprod gives sizes exactly if the batch sizes agree and the number of columns is the length of the vectors, and then those of a batch of vectors with an entry for each row.", "quantifier": "all lists of sizes", "why_tests_cant": "all lengths and sizes", "anchors": ["include/Gdims.hpp:277-286"]}
{"id": "C549", "title": "Combined sizes of consecutive axes", "statement": "combined(a,b) is the product of the sizes of the axes from a to before b, throws outside the axes, and multiplies over neighbouring ranges.", "quantifier": "all lists of sizes and all a, b", "why_tests_cant": "all lengths and sizes", "anchors": ["include/Gdims.hpp:190-195"]}
{"id": "C550", "title": "Sizes of sets of axes", "statement": "select(s) lists the sizes of the axes in s, unite(s) is their product, and both throw for axes that do not exist; for two sets that share no axis and have all of them the products multiply to the number of entries.", "quantifier": "all lists of sizes and all sets", "why_tests_cant": "all sets of axes", "anchors": ["include/Gdims.hpp:292-308"]}
{"id": "C551", "title": "Checks of indices", "statement": "check_in_range of sizes and check_range of an index pass exactly for indices with one entry for each axis from 0 to before its size and throw otherwise, also if the index is made from a vector.", "quantifier": "all sizes and vectors", "why_tests_cant": "all sizes and vectors", "anchors": ["include/Gdims.hpp:388-392", "include/Gindex.hpp:42-44", "include/Gindex.hpp:187-201"]}
{"id": "C552", "title": "Order of vectors", "statement": "operator< of vectors of integers is the lexicographic order and a strict total order.", "quantifier": "all vectors", "why_tests_cant": "all lengths", "anchors": ["include/gvectr.hpp:282-289"]}
{"id": "C553", "title": "Entries of vectors", "statement": "v(i) and v.back(i) count from the start and from the end, set_back changes exactly one entry, max and min are the largest and smallest entries, insert(j,n,x) puts n copies before entry j.", "quantifier": "all vectors", "why_tests_cant": "all lengths and positions", "anchors": ["include/gvectr.hpp:80-122", "include/gvectr.hpp:155-162"]}
{"id": "C554", "title": "Sizes of convolutions", "statement": "convolve gives for each axis the number of positions of the window inside the image and throws if the numbers of axes differ.", "quantifier": "all sizes", "why_tests_cant": "all sizes", "anchors": ["include/Gdims.hpp:227-233"]}
{"id": "C555", "title": "Hashes of indices", "statement": "The hash of an index is defined for every index.", "quantifier": "all indices and all hash functions of integers", "why_tests_cant": "all lengths", "anchors": ["include/Gindex.hpp:242-251"]}
{"id": "C556", "title": "Block sparse matrix times matrix on the GPU", "statement": "apply_to(r,y) of a block sparse matrix on the GPU adds the product of the dense matrix with y to r, however the threads run.", "quantifier": "all block matrices, all matrices, all orders of the threads", "why_tests_cant": "needs a GPU; all schedules", "anchors": ["cuda/BlockCsparseMatrix.cu:25-69", "matrices/BlockCsparseMatrix.hpp:168-185", "containers/array_pool.hpp:337-348"]}
{"id": "C557", "title": "Transposed block sparse matrix times matrix on the GPU", "statement": "apply_transp_to(r,y) of a block sparse matrix on the GPU adds the product of the transposed dense matrix with y to r.", "quantifier": "all block matrices, all matrices, all orders of the threads", "why_tests_cant": "needs a GPU; all schedules", "anchors": ["matrices/BlockCsparseMatrix.hpp:188-205", "cuda/BlockCsparseMatrix.cu:25-69"]}
{"id": "C558", "title": "Arrays of complex tensors: constructors", "statement": "The constructors of CtensorArrayA make an array with the given sizes whose cells hold zeros, the given fill, consecutive real parts, or copies of one tensor; real and imaginary parts share no memory and nothing else changes.", "quantifier": "all sizes, all memories", "why_tests_cant": "all sizes; memory outside the array", "anchors": ["legacy/backendA/CtensorArrayA.hpp:93-109", "legacy/backendA/CtensorArrayA.hpp:137-225"]}
{"id": "C559", "title": "Arrays of complex tensors: cells", "statement": "cell, set_cell, add_to_cell, copy_cell_into and add_cell_into reach exactly the tensor at the given index; different tensors share no memory.", "quantifier": "all sizes, all indices in range", "why_tests_cant": "all shapes; disjointness of memory", "anchors": ["legacy/backendA/CtensorArrayA.hpp:523-701"]}
{"id": "C560", "title": "Arrays of complex tensors: copies and broadcasting", "statement": "Copies, broadcast_copy(x), broadcast_add(x), broadcast_subtract(x), plus and minus give for each cell the copy, sum or difference, and change nothing else.", "quantifier": "all sizes, all memories", "why_tests_cant": "all shapes; memory outside the array", "anchors": ["legacy/backendA/CtensorArrayA.hpp:282-286", "legacy/backendA/CtensorArrayA.hpp:1020-1109", "legacy/backendA/CtensorArrayA.hpp:1274-1290"]}
{"id": "C561", "title": "Arrays of complex tensors: cells of copies, one-cell arrays, scaled sums", "statement": "The cells of a copy can be looked at; an array made from one tensor has one cell; add_broadcast and scatter_add_times_c work for arrays with equal sizes.", "quantifier": "all arrays and tensors", "why_tests_cant": "undefined behaviour may go unnoticed", "anchors": ["legacy/backendA/CtensorArrayA.hpp:228-232", "legacy/backendA/CtensorArrayA.hpp:282-286", "legacy/backendA/CtensorArrayA.hpp:1198-1208", "legacy/backendA/CtensorArrayA.hpp:1312-1320"]}
{"id": "C562", "title": "Arrays of complex tensors: along an axis", "statement": "broadcast_copy(ix,x) and broadcast_add(ix,x) set or add x in every slice along the axis; add_reduce(x,ix) adds the sums along the axis.", "quantifier": "all sizes, all axes", "why_tests_cant": "all shapes and axes", "anchors": ["legacy/backendA/CtensorArrayA.hpp:1047-1071", "legacy/backendA/CtensorArrayA.hpp:1111-1177"]}
{"id": "C563", "title": "Arrays of complex tensors: one factor for each cell", "statement": "inplace_scatter_times(C) multiplies each cell by its number.", "quantifier": "all sizes, all numbers of a ring", "why_tests_cant": "all shapes", "anchors": ["legacy/backendA/CtensorArrayA.hpp:922-927", "legacy/backendA/CtensorArrayA.hpp:1210-1224"]}
{"id": "C564", "title": "Arrays of complex tensors: one divisor for each cell", "statement": "inplace_scatter_div(C) divides each cell by its number.", "quantifier": "all sizes", "why_tests_cant": "the wrong operation is chosen silently", "anchors": ["legacy/backendA/CtensorArrayA.hpp:1226-1241", "legacy/tensor_array/cell_ops/CtensorA_add_times_c_cop.hpp:83-85"]}
{"id": "C565", "title": "Arrays of complex tensors: conjugates", "statement": "conj() makes an array with the same sizes whose tensors are the conjugates.", "quantifier": "all sizes", "why_tests_cant": "all shapes", "anchors": ["legacy/backendA/CtensorArrayA.hpp:1247-1262"]}
{"id": "C566", "title": "Arrays of complex tensors: products cell by cell", "statement": "add_Mprod_AA and add_Mprod_AT add to each cell the product of the two cells with the same number, with conjugation as selected.", "quantifier": "all sizes, all rings, all four selectors", "why_tests_cant": "all shapes and selectors", "anchors": ["legacy/backendA/CtensorArrayA.hpp:1296-1306", "include/Cmaps.hpp:216-225"]}
{"id": "C567", "title": "Arrays of complex tensors: products with one tensor", "statement": "broadcast_add_Mprod_AA and broadcast_add_Mprod_AT add to each cell the product of a cell with the one tensor, with conjugation as selected.", "quantifier": "all sizes, all rings, all four selectors", "why_tests_cant": "all shapes and selectors", "anchors": ["legacy/backendA/CtensorArrayA.hpp:1322-1433"]}
{"id": "C568", "title": "Packs of real tensors: constructors", "statement": "On the CPU a pack made with N tensors of one size (raw, zero, sequential or random), or of zeros with the sizes of a list, holds exactly those tensors one after the other: the addresses and sizes in the directory and the cells of the array agree.  A list of sizes with different numbers of sizes throws.  Counterexample to 'any list of sizes gives a usable pack': of an empty list a pack is made to which nothing can be added, every push_back throws.", "quantifier": "all numbers, sizes and fill functions, all lists of sizes", "why_tests_cant": "tests construct a few packs", "anchors": ["legacy/tensor/RtensorPack.hpp"]}
{"id": "C569", "title": "Packs of real tensors: push_back", "statement": "push_back, push_back_zero and push_back_raw add one tensor at the end and keep all others, whatever room there was; a tensor with another number of sizes throws.", "quantifier": "all packs, all tensors", "why_tests_cant": "whether the array has to be moved depends on the history", "anchors": ["legacy/tensor/RtensorPack.hpp"]}
{"id": "C570", "title": "Packs of real tensors: reading", "statement": "size, dims_of, dim_of, operator()(i), view_of_tensor and view1/2/3_of give the number of tensors, their sizes and exactly their cells; views of the wrong number of sizes throw; positions beyond the end are undefined (the range checks are compiled out).", "quantifier": "all packs, all positions", "why_tests_cant": "tests look at single positions", "anchors": ["legacy/tensor/RtensorPack.hpp"]}
{"id": "C571", "title": "Packs of real tensors: copies", "statement": "The copy, zeros_like and gaussian_like of a pack hold the same tensors, zeros, or the numbers drawn, in the same sizes.  Counterexamples for assignment: from a pack that has no array yet one cell is read through the null pointer, a default-constructed pack can not be copied, and self-assignment forgets all tensors.", "quantifier": "all packs", "why_tests_cant": "an empty source and self-assignment are rarely tested", "anchors": ["legacy/tensor/RtensorPack.hpp"]}
{"id": "C572", "title": "Packs of real tensors: cat", "statement": "The concatenation of packs whose tensors have the same number of sizes holds all tensors in order.  Counterexamples: no packs throw; packs with different numbers of sizes write the directory beyond its end, or leave a tensor that can not be read.", "quantifier": "all lists of packs", "why_tests_cant": "the addresses of all later packs are shifted; tests use two packs", "anchors": ["legacy/tensor/RtensorPack.hpp"]}
{"id": "C573", "title": "Packs of real tensors: from one tensor", "statement": "A tensor and a list of sizes give the pack of the consecutive pieces; sizes that do not fit throw.  Counterexample: from a temporary that is not a view the conversion always throws, because the directory is made with three sizes.", "quantifier": "all tensors, all lists of sizes", "why_tests_cant": "the moving constructor is chosen silently by the compiler", "anchors": ["legacy/tensor/RtensorPack.hpp"]}
{"id": "C574", "title": "Packs of real tensors: arithmetic", "statement": "add(x), add(x,c), add_subpack, inp and diff2 compute with the numbers of the two packs one after the other; different totals throw, different sizes with the same total do not.", "quantifier": "all packs all of whose cells were written", "why_tests_cant": "tests use packs of the same sizes", "anchors": ["legacy/tensor/RtensorPack.hpp"]}
{"id": "C575", "title": "Packs of real tensors: comparison", "statement": "Copies of packs compare equal exactly when they hold the same tensors.  Counterexample: after push_back a pack is not equal to its own copy, and comparing it with itself reads numbers that were never written, since the spare rows of the directories are compared as well.", "quantifier": "all packs", "why_tests_cant": "depends on the spare room in the directory", "anchors": ["legacy/tensor/RtensorPack.hpp"]}
{"id": "C576", "title": "Packs of real tensors: pushing a tensor of the pack itself", "statement": "When there is room, push_back(p.view_of_tensor(i)) adds tensor i once more.  Counterexample: without room the array is released before the argument, which points into it, is read.", "quantifier": "all packs, all positions", "why_tests_cant": "depends on the spare room", "anchors": ["legacy/tensor/RtensorPack.hpp"]}
{"id": "C577", "title": "Packs of real tensors: reserve", "statement": "reserve(n) for n>0 and reserve_zero(n) keep all tensors and give room for n cells, reserve_zero with zeros in the new ones.  Counterexample: reserve(0) of a pack with room for more than one cell copies all its cells into an array of one.", "quantifier": "all packs, all n", "why_tests_cant": "reserve(0) is not called directly in tests", "anchors": ["legacy/tensor/RtensorPack.hpp"]}
{"id": "C578", "title": "Packs of real tensors: moving", "statement": "The pack made by the move constructor holds the tensors.  Counterexample to 'the old one is empty': it still says it has as many tensors, none can be read, and adding one is undefined.", "quantifier": "all packs that are not empty", "why_tests_cant": "moved-from objects are not used in tests", "anchors": ["legacy/tensor/RtensorPack.hpp"]}
{"id": "C579", "title": "Bilinear interpolation matrix", "statement": "For points of an n0\u00d7n1 grid the matrix has positive weights only at samples closer than one step in each direction, columns within the matrix, and gives every function that is affine in each variable its own value at the points.", "quantifier": "all numbers of points, all points in the grid, all grids (proved: n0=n1)", "why_tests_cant": "tests use square grids and one function", "anchors": ["legacy/matrix/InterpolBilinear.hpp"]}
{"id": "C580", "title": "Bilinear interpolation: domain", "statement": "The constructor succeeds exactly for a tensor of points with two columns all of whose points are in the grid, and reports an error otherwise.", "quantifier": "all tensors of points, all grid sizes", "why_tests_cant": "finitely many points are tried", "anchors": ["legacy/matrix/InterpolBilinear.hpp"]}
{"id": "C581", "title": "Trilinear interpolation matrix", "statement": "For points of an n0\u00d7n1\u00d7n2 grid the entries have positive weights only at samples closer than one step in each direction and give every function that is affine in each variable its own value at the points.", "quantifier": "all numbers of points, all points in the grid, all grids (proved: cubes)", "why_tests_cant": "tests use cubes and one function", "anchors": ["legacy/matrix/InterpolTrilinear.hpp"]}
{"id": "C582", "title": "Trilinear interpolation: domain", "statement": "The constructor succeeds exactly for a tensor of points with three columns all of whose points are in the grid, and reports an error otherwise.", "quantifier": "all tensors of points, all grid sizes", "why_tests_cant": "finitely many points are tried", "anchors": ["legacy/matrix/InterpolTrilinear.hpp"]}
{"id": "C583", "title": "Interpolation matrices: transpose", "statement": "The transpose of an interpolation matrix can be formed and has its entries with row and column exchanged.", "quantifier": "all points in the grid (proved: bilinear, square grids)", "why_tests_cant": "out-of-bounds increments go unnoticed", "anchors": ["legacy/matrix/InterpolBilinear.hpp", "legacy/matrix/InterpolTrilinear.hpp", "matrices/CSRmatrix.hpp"]}
{"id": "C584", "title": "Spherical interpolation matrix", "statement": "The constructor never reports a point outside the grid; row (i*Ntheta+k)*Nphi+j interpolates at a point whose distance from the centre is (N-1)/2/Nr*(i+1/2).", "quantifier": "all numbers of shells, rings and directions, all N>=1, all previous contents of memory", "why_tests_cant": "all sizes cannot be tried", "anchors": ["legacy/matrix/SphericalIpMatrix.hpp"]}
{"id": "C585", "title": "Spherical interpolation matrix: directions", "statement": "The point of sample (i,j,k) has the polar angle pi*(k+1/2)/Ntheta and the azimuth 2*pi*j/Nphi.", "quantifier": "all sizes and samples (proved: the polar angle)", "why_tests_cant": "the points are not exposed", "anchors": ["legacy/matrix/SphericalIpMatrix.hpp"]}
{"id": "C586", "title": "New complex tensors of backend B hold what their fill says", "statement": "A new tensor of backend B (real and imaginary parts interleaved) has row-major strides of two cells per number and holds zeros, given numbers, 0, 1, 2, … or, for a square matrix, the identity; a list without axes and a matrix that is not square are refused. A tensor of ones holds 1.", "quantifier": "All lists of sizes, addresses, memories and fills.", "why_tests_cant": "The claim is about every list of sizes, every memory and every entry; a test sees a few sizes.", "anchors": ["legacy/backendB/CtensorB.hpp:101-206"]}
{"id": "C587", "title": "Copies and assignments of complex tensors of backend B", "statement": "A copy holds the entries of the original in cells of its own and changes nothing else; assigning gives a tensor with the entries of the right hand side.", "quantifier": "All tensors, addresses of free memory, and left hand sides with or without an array.", "why_tests_cant": "The claim is about every list of sizes, every memory and every entry; a test sees a few sizes.", "anchors": ["legacy/backendB/CtensorB.hpp:258-372"]}
{"id": "C588", "title": "Complex tensors of backend B from and to real and imaginary parts", "statement": "A complex tensor made of two real ones has the first as real parts and the second as imaginary parts, and real() and imag() give them back; the real tensors keep their entries.", "quantifier": "All lists of sizes, entries and free blocks of memory.", "why_tests_cant": "The claim is about every list of sizes, every memory and every entry; a test sees a few sizes.", "anchors": ["legacy/backendB/CtensorB.hpp:445-484"]}
{"id": "C589", "title": "Access by index to complex tensors of backend B", "statement": "get reads the entry with the given indices, set replaces it and inc adds to it, and no other entry and no other cell changes; the same for two separate indices.", "quantifier": "All tensors, all indices in range, all values.", "why_tests_cant": "The claim is about every list of sizes, every memory and every entry; a test sees a few sizes.", "anchors": ["legacy/backendB/CtensorB.hpp:982-1200"]}
{"id": "C590", "title": "Views of complex tensors of backend B", "statement": "A view shows the same entries; a view with other sizes shows them in the same order; fusing the first axes and picking the first or last axis show the entries at the right places.", "quantifier": "All tensors and all sizes with the same number of entries.", "why_tests_cant": "The claim is about every list of sizes, every memory and every entry; a test sees a few sizes.", "anchors": ["legacy/backendB/CtensorB.hpp:378-420", "legacy/backendB/CtensorB.hpp:949-976"]}
{"id": "C591", "title": "Conjugates and transposes of complex tensors of backend B", "statement": "conj() gives the conjugates of the entries, on the CPU and on the GPU; transp() gives the transposed matrix.", "quantifier": "All tensors.", "why_tests_cant": "The claim is about every list of sizes, every memory and every entry; a test sees a few sizes.", "anchors": ["legacy/backendB/CtensorB.hpp:1480-1530"]}
{"id": "C592", "title": "Sums and differences of complex tensors of backend B", "statement": "add, subtract, multiples, set, set_zero, plus and minus do what they say to each entry and change no other cell; tensors of different numbers of entries are refused.", "quantifier": "All tensors, the second apart from the first or the same.", "why_tests_cant": "The claim is about every list of sizes, every memory and every entry; a test sees a few sizes.", "anchors": ["legacy/backendB/CtensorB.hpp:821-840", "legacy/backendB/CtensorB.hpp:1535-1551", "legacy/backendB/CtensorB.hpp:1608-1740"]}
{"id": "C593", "title": "Adding conjugates in backend B", "statement": "add_conj adds the conjugate of each entry, times a real or a complex number where one is given, and changes no other cell.", "quantifier": "All tensors, the second apart from the first or the same; all numbers.", "why_tests_cant": "The claim is about every list of sizes, every memory and every entry; a test sees a few sizes.", "anchors": ["legacy/backendB/CtensorB.hpp:1661-1704"]}
{"id": "C594", "title": "Quotients of complex tensors of backend B", "statement": "operator/ gives the quotients of the entries as complex numbers.", "quantifier": "All tensors with the same sizes.", "why_tests_cant": "The claim is about every list of sizes, every memory and every entry; a test sees a few sizes.", "anchors": ["legacy/backendB/CtensorB.hpp:1553-1566"]}
{"id": "C595", "title": "Inner products and norms of complex tensors of backend B", "statement": "inp gives the sum of the products, norm2 the sum of the squared absolute values, diff2 that of the difference; add_inp_into and add_norm2_into add the same numbers.", "quantifier": "All tensors over every ring.", "why_tests_cant": "The claim is about every list of sizes, every memory and every entry; a test sees a few sizes.", "anchors": ["legacy/backendB/CtensorB.hpp:1572-1602", "legacy/backendB/CtensorB.hpp:1779-1785"]}
{"id": "C596", "title": "Matrix products in backend B", "statement": "add_Mprod_AA adds the product of the two matrices, with the first conjugated for selectors 1 and 3 and the second for 2 and 3; sizes that do not fit are refused.", "quantifier": "All sizes, entries and selectors.", "why_tests_cant": "The claim is about every list of sizes, every memory and every entry; a test sees a few sizes.", "anchors": ["legacy/backendB/CtensorB.hpp:1789-1823"]}
{"id": "C597", "title": "The rectifier on complex tensors of backend B", "statement": "add_ReLU adds each positive real or imaginary part as it is and each negative one times alpha; tensors of different numbers of entries are refused.", "quantifier": "All tensors, the second apart from the first or the same; all alpha.", "why_tests_cant": "The claim is about every list of sizes, every memory and every entry; a test sees a few sizes.", "anchors": ["legacy/backendB/CtensorB.hpp:1855-1867"]}
{"id": "C598", "title": "Complex tensors of backend B and tensors of ATen", "statement": "A tensor made from a tensor of ATen, a view of one, and the tensor of ATen made by torch() have the same entries at the same indices, whatever the strides are.", "quantifier": "All tensors of ATen on the CPU.", "why_tests_cant": "The claim is about every list of sizes, every memory and every entry; a test sees a few sizes.", "anchors": ["legacy/backendB/CtensorB.hpp:638-752"]}
{"id": "C599", "title": "Scalars and bundles of scalars: construction and copies hold the right numbers", "statement": "A scalar object made from a value, filled with a value, made by applying a function to each number of another, copied, assigned, or moved holds exactly the numbers it should, whether it is one number (nbu=-1) or a bundle of nbu numbers; a vector of numbers made into a scalar object and converted back is unchanged. Assigning an object to itself leaves it as it was, and a random complex number has a random imaginary part.", "quantifier": "all numbers, all bundle sizes, all prior contents of the target", "why_tests_cant": "Tests use small bundles and never self-assign; the undefined copy of a freed array often looks right.", "anchors": ["legacy/scalar/RscalarA.hpp", "legacy/scalar/CscalarA.hpp"]}
{"id": "C600", "title": "Scalars: value access, comparison and zeroing", "statement": "get_value and set_value work on a single number and refuse a bundle; operator== refuses objects of different shapes and otherwise answers whether all numbers agree; set_zero makes every number 0 and keeps the shape.", "quantifier": "all scalar objects, all bundle sizes", "why_tests_cant": "Equality over bundles has one case per position of the first difference.", "anchors": ["legacy/scalar/RscalarA.hpp", "legacy/scalar/CscalarA.hpp"]}
{"id": "C601", "title": "Real scalars: sums, products, quotients, powers act number by number", "statement": "add, add(x,c), subtract, add_minus, add_prod, add_div, add_norm2, add_abs, add_pow and add_exp of real scalars add the right number to every number of the target, for single numbers and for bundles of any size; arguments of a different shape are refused.", "quantifier": "all scalar objects, all bundle sizes, all numbers", "why_tests_cant": "Mixing a number with a bundle reads a null pointer; tests pass equal shapes.", "anchors": ["legacy/scalar/RscalarA.hpp"]}
{"id": "C602", "title": "Complex scalars: parts, conjugates and products act number by number", "statement": "real, imag, conj, set_real, set_imag, add_to_real, add_to_imag, add_conj, add_real_to, add_imag_to, the products with neither, one or both factors conjugated, the product with a real scalar and the squared modulus give, for every number, the value written out in real and imaginary parts.", "quantifier": "all complex scalar objects of equal shape, all bundle sizes, over any commutative ring", "why_tests_cant": "A sign error in one conjugated product survives tests with real data.", "anchors": ["legacy/scalar/CscalarA.hpp"]}
{"id": "C603", "title": "Scalars: the sum of several scalars", "statement": "add_sum(v) adds the sum of all scalars in v, and sum(v) is their sum, for single numbers and for bundles.", "quantifier": "all lists of scalar objects", "why_tests_cant": "Lists of bundles are a case the code only announces as unimplemented and then continues.", "anchors": ["legacy/scalar/RscalarA.hpp", "legacy/scalar/CscalarA.hpp"]}
{"id": "C604", "title": "Real scalars: the backward functions add the gradient", "statement": "Over the real numbers, add_norm2_back, add_div_back0, add_div_back1, add_abs_back, add_ReLU_back, add_sigmoid_back (given the output) and add_pow_back (given exponent e-1 and factor c*e) add to every number the incoming gradient times the derivative of the forward function, wherever that derivative exists away from the kinks.", "quantifier": "all real scalars, all bundle sizes, all points where the forward function is smooth", "why_tests_cant": "A numeric gradient check covers a few points; the two formulas in add_div_back1 differ between numbers and bundles.", "anchors": ["legacy/scalar/RscalarA.hpp"]}
{"id": "C605", "title": "Complex scalars: the backward functions add the gradient", "statement": "The backward functions of the rectifier, the squared modulus and the modulus of complex scalars add the incoming gradient times the derivatives by the real and by the imaginary part.", "quantifier": "all complex scalars, all bundle sizes", "why_tests_cant": "Data with no imaginary part hide the lost derivative.", "anchors": ["legacy/scalar/CscalarA.hpp"]}
{"id": "C606", "title": "Sparse tensors hold what was assigned last", "statement": "After any sequence of set(ix,x) on a sparse tensor, with indices of the right length, is_filled says whether an index was assigned, nfilled counts the different indices assigned, for_each_nonzero visits each of them exactly once with the value assigned last, and operator() gives that value, or 0 where nothing was assigned.", "quantifier": "all numbers of axes, all sequences of assignments", "why_tests_cant": "Tensors with two axes are stored in another map than all others; one function searches the wrong one.", "anchors": ["legacy/tensor/SparseTensor.hpp:41-44", "legacy/tensor/SparseTensor.hpp:61-121", "legacy/tensor/SparseTensor.hpp:162-195"]}
{"id": "C607", "title": "Sparse tensors filled from a mask", "statement": "The constructor from a mask gives the k-th pair of the mask the number k and stores nothing else; it refuses tensors that do not have two axes.", "quantifier": "all masks without repeated pairs", "why_tests_cant": "The claim is about every mask and every order of traversal.", "anchors": ["legacy/tensor/SparseTensor.hpp:46-51"]}
{"id": "C608", "title": "Arrays of complex tensors of backend B: construction, copies, views, entries", "statement": "An array of tensors made from array sizes and tensor sizes, from a tensor, or as a copy holds what it should at every place; a view with other array sizes has the tensors in the same order; reading and writing one entry touches that entry only.", "quantifier": "all array sizes, all nonempty tensor sizes, all entries and memories", "why_tests_cant": "The claim is about every number of axes and every size.", "anchors": ["legacy/backendB/CtensorArrayB.hpp:57-119", "legacy/backendB/CtensorArrayB.hpp:152-163", "legacy/backendB/CtensorArrayB.hpp:194-205", "legacy/backendB/CtensorArrayB.hpp:276-282"]}
{"id": "C609", "title": "Arrays of complex tensors of backend B: tensors by index", "statement": "The tensor at an index can be viewed, copied out, added to another tensor, replaced and added to; each function touches that tensor only, and tensors at different places share no number.", "quantifier": "all array sizes, tensor sizes, indices and tensors that do not overlap", "why_tests_cant": "The claim is about every index of arrays with any number of axes.", "anchors": ["legacy/backendB/CtensorArrayB.hpp:288-355", "legacy/backendB/CtensorArrayB.hpp:383-399"]}
{"id": "C610", "title": "Arrays of complex tensors of backend B: tensors by number", "statement": "The functions that take the number of a tensor act on the tensor with that number in row-major order.", "quantifier": "all array sizes, tensor sizes and numbers", "why_tests_cant": "The mistake is invisible for the first tensor and for tensors whose first axis has the size 1.", "anchors": ["legacy/backendB/CtensorArrayB.hpp:268-270", "legacy/backendB/CtensorArrayB.hpp:320-335", "legacy/backendB/CtensorArrayB.hpp:357-381"]}
{"id": "C611", "title": "Arrays of complex tensors of backend B: one tensor copied everywhere", "statement": "broadcast_copy(x) makes every tensor of the array equal to x and changes nothing else; it refuses a tensor of other sizes.", "quantifier": "all array sizes, tensor sizes and tensors outside the array", "why_tests_cant": "The claim is about every size; tensors whose first axis has the size 1 hide the mistake.", "anchors": ["legacy/backendB/CtensorArrayB.hpp:504-514"]}
{"id": "C612", "title": "Arrays of complex tensors of backend B: sums", "statement": "plus(x) of two arrays adds entry by entry; plus(y) and minus(y) with one tensor add it to, or subtract it from, every tensor of the array.", "quantifier": "all arrays of equal sizes and all tensors", "why_tests_cant": "The claim is about every array and every tensor.", "anchors": ["legacy/backendB/CtensorArrayB.hpp:680-694"]}
{"id": "C613", "title": "Arrays of complex tensors of backend B: broadcasting along an axis", "statement": "broadcast_copy(ix,x) makes every tensor of the array equal to the tensor of x whose index leaves out axis ix, and changes nothing else; it refuses x when its sizes are not those of the array with axis ix left out.", "quantifier": "all arrays, all axes, all arrays x outside the array", "why_tests_cant": "The claim is about any number of axes before and behind the axis; tests miss empty arrays.", "anchors": ["legacy/backendB/CtensorArrayB.hpp:529-573"]}
{"id": "C614", "title": "Arrays of complex tensors of backend B: adding along an axis", "statement": "add_reduce(x,ix) adds to every tensor of the array the sum of the tensors of x along axis ix, and changes nothing else; it refuses other sizes.", "quantifier": "all arrays, all axes, all arrays x outside the array", "why_tests_cant": "The claim is about any number of axes before and behind the axis; tests with equal sizes cannot see that the check compares a size with itself.", "anchors": ["legacy/backendB/CtensorArrayB.hpp:576-622"]}
{"id": "C615", "title": "Copying small vectors keeps what they hold", "statement": "Copying a minivec, or making a copy of it for the host or the GPU, gives a vector on the right side that holds the same list in a block of its own; the original and everything else in memory stay as they were.", "quantifier": "for all heaps, all vectors holding a list and both sides", "why_tests_cant": "tests copy one vector of one length on the host; the copies between host and GPU need a GPU", "anchors": ["containers/minivec.hpp:60-65", "containers/minivec.hpp:79-89"]}
{"id": "C616", "title": "Moving a small vector to a side keeps what it holds", "statement": "minivec::move_to_device leaves the list unchanged on the side asked for, gives the old block back when the side changes, and touches no other block.", "quantifier": "for all heaps, all vectors holding a list, all pairs of sides", "why_tests_cant": "needs a GPU, and a lost block shows no wrong value", "anchors": ["containers/minivec.hpp:91-107"]}
{"id": "C617", "title": "Single cells of small vectors", "statement": "On the host, reading a cell of a minivec gives its item and writing or adding changes that item only; on the GPU, or outside a vector that is not empty, the access is undefined.", "quantifier": "for all heaps, vectors, cells and values", "why_tests_cant": "a test that reads a GPU pointer on the host crashes or not depending on the machine", "anchors": ["containers/minivec.hpp:117-131"]}
{"id": "C618", "title": "Moving from a small vector", "statement": "The vector built by the moving constructor of minivec holds the list of the old one, and destroying both gives the block back once.", "quantifier": "for all heaps and vectors holding a list", "why_tests_cant": "only vectors on the GPU show the mistake, and only when they are destroyed", "anchors": ["containers/minivec.hpp:67-71", "containers/minivec.hpp:31"]}
{"id": "C619", "title": "The filling constructor of small vectors", "statement": "minivec(n,v,dev) holds n times v on the side dev.", "quantifier": "for all heaps, lengths, values, sides and contents of the unset member", "why_tests_cant": "the unset member is often 0, so a test passes by luck", "anchors": ["containers/minivec.hpp:50-54"]}
{"id": "C620", "title": "Each block of a small vector has one owner", "statement": "In every state reached by making, copying, moving, transporting, changing and destroying minivecs, each vector owns its block alone on the side it says, each block has an owner, destroying a vector is defined, and when no vector is left no memory is.", "quantifier": "for all programs and all states they reach", "why_tests_cant": "leaks and double deletes depend on the order of the calls", "anchors": ["containers/minivec.hpp:33-36", "containers/minivec.hpp:42-107"]}
{"id": "C621", "title": "An object made on demand is made once", "statement": "Asking a monitored object for its value any number of times, by operator() or shared(), calls the making function once, gives the same object each time, and puts the address once into its monitor.", "quantifier": "for all lists of uses, makers, monitors and addresses", "why_tests_cant": "a test asks once or twice for one object", "anchors": ["utility/monitored.hpp:43-50", "utility/monitored.hpp:72-86", "utility/monitored.hpp:103-105"]}
{"id": "C622", "title": "Copies of objects made on demand", "statement": "A copy of a monitored object can be used as the original can: it gives the object, making it if needed, and its monitor watches it.", "quantifier": "for all objects, makers, lists of uses and addresses", "why_tests_cant": "the test copies only objects already made, if any", "anchors": ["utility/monitored.hpp:59-62", "utility/monitored.hpp:72-86"]}
{"id": "C623", "title": "Writing host vectors into a GPU buffer", "statement": "GPUbuffer::push_minivec writes a host vector at the cell asked for and changes nothing else, and refuses everything that does not lie inside the buffer.", "quantifier": "for all heaps, buffers, vectors and positions", "why_tests_cant": "needs a GPU, and the mistake shows only for a negative position", "anchors": ["containers/GPUbuffer.hpp:66-70"]}
{"id": "C624", "title": "Making room in a GPU buffer", "statement": "GPUbuffer::reset(n) gives a buffer with room for n cells, never a smaller one; the old block is given back if a new one is made, and no other block changes.", "quantifier": "for all heaps, buffers and numbers", "why_tests_cant": "needs a GPU, and the mistake shows only for a negative number", "anchors": ["containers/GPUbuffer.hpp:48-54"]}
{"id": "C625", "title": "Copies of a GPU buffer can be destroyed", "statement": "A copy of a GPUbuffer and its original can both be destroyed.", "quantifier": "for all heaps and buffers", "why_tests_cant": "a second release may go unnoticed", "anchors": ["containers/GPUbuffer.hpp:28-34"]}
{"id": "C626", "title": "Writing and synchronising a two-sided buffer", "statement": "AsyncGPUbuffer::push_minivec followed by sync puts the vector at the cell asked for on both sides, leaves the other cells as the host side has them, and changes no other block.", "quantifier": "for all heaps, buffers, vectors and positions", "why_tests_cant": "needs a GPU", "anchors": ["containers/AsyncGPUbuffer.hpp:80-84", "containers/AsyncGPUbuffer.hpp:100-102"]}
{"id": "C627", "title": "Two-sided buffers give their memory back", "statement": "After an AsyncGPUbuffer is made and destroyed the memory is as it was before.", "quantifier": "for all heaps and sizes", "why_tests_cant": "a leak shows no wrong value", "anchors": ["containers/AsyncGPUbuffer.hpp:33-60"]}
{"id": "C628", "title": "The least size of a two-sided buffer", "statement": "After AsyncGPUbuffer::min_size(n) the buffer has room for n cells, and a buffer that had keeps what it holds.", "quantifier": "for all heaps, buffers and numbers", "why_tests_cant": "no test calls it", "anchors": ["containers/AsyncGPUbuffer.hpp:52-64"]}
{"id": "C629", "title": "Copying a matrix of integers", "statement": "Itensor2_view::set(x) makes the target hold the cells of x and changes nothing else, on the host and on the GPU, for all strides.", "quantifier": "for all views of equal size with separate cells, devices and contents", "why_tests_cant": "the tests hold no GPU and no strided integer matrices", "anchors": ["tensor_views/Itensor2_view.hpp:116-127"]}
{"id": "C630", "title": "Adding a matrix of integers", "statement": "Itensor2_view::add(x) and add(x,c) add each cell of x (times c) to the cell of the target and change nothing else, on the host and on the GPU.", "quantifier": "for all views of equal size, factors, devices and contents", "why_tests_cant": "overflow and the branch for the GPU are not tested", "anchors": ["tensor_views/Itensor2_view.hpp:130-141", "tensor_views/Itensor2_view.hpp:144-156"]}
{"id": "C631", "title": "Products of matrices of integers", "statement": "Itensor2_view::add_matmul_AA(x,y) adds the product of the matrices to the target and changes nothing else, whenever the result fits into an int.", "quantifier": "for all views of matching sizes and contents", "why_tests_cant": "overflow of intermediate values depends on the data", "anchors": ["tensor_views/Itensor2_view.hpp:159-173"]}
{"id": "C632", "title": "Blocks of matrices of integers", "statement": "Both overloads of Itensor2_view::block take the same block, a negative size meaning the rest of the matrix.", "quantifier": "for all sizes, positions and arguments", "why_tests_cant": "only the default -1 is ever used", "anchors": ["tensor_views/Itensor2_view.hpp:105-110", "tensor_views/Itensor2_view.hpp:303-311"]}
{"id": "C633", "title": "Adding a vector of integers", "statement": "Itensor1_view::add(x) and operator+= add each cell of x to the cell of the target and change nothing else, for all strides.", "quantifier": "for all views of equal length, strides and contents", "why_tests_cant": "the tests add no strided integer vectors", "anchors": ["tensor_views/Itensor1_view.hpp:116-126", "tensor_views/Itensor1_view.hpp:140-142"]}
{"id": "C634", "title": "Adding a multiple of a vector of integers", "statement": "Itensor1_view::add(x,c) adds c times each cell of x to the cell of the target and changes nothing else, for all strides and on both sides.", "quantifier": "for all views of equal length, factors, devices and contents", "why_tests_cant": "overflow and the branch for the GPU are not tested", "anchors": ["tensor_views/Itensor1_view.hpp:128-138"]}
{"id": "C635", "title": "The sum of a vector of integers", "statement": "Itensor1_view::reduce returns the sum of the cells.", "quantifier": "for all views, devices and contents", "why_tests_cant": "the tests hold no GPU", "anchors": ["tensor_views/Itensor1_view.hpp:148-153"]}
{"id": "C636", "title": "Multiplying a stack of integer matrices", "statement": "Itensor3_view::add_matmul_AA(x,y) adds to each matrix of the target the product of the matrix of x with y and changes nothing else.", "quantifier": "for all views of matching sizes and contents", "why_tests_cant": "no test calls it, and cubes hide the mistake", "anchors": ["tensor_views/Itensor3_view.hpp:125-142"]}
{"id": "C637", "title": "Copies of pools of integers", "statement": "The copy of an int_pool holds the same cells on the same side in memory of its own, and the pool copied stays as it is.", "quantifier": "for all heaps, pools and devices", "why_tests_cant": "the tests hold no GPU and cannot see whether memory is shared", "anchors": ["containers/int_pool.hpp:47-51"]}
{"id": "C638", "title": "The end of a pool of integers", "statement": "The destructor of int_pool gives back exactly the memory of the pool.", "quantifier": "for all heaps, pools and devices", "why_tests_cant": "undefined behaviour and leaks do not show in output", "anchors": ["containers/int_pool.hpp:31-33"]}
{"id": "C639", "title": "Moving a pool of integers between host and GPU", "statement": "After move_to_device(d) the pool lies on the side asked for and holds the same cells, its old memory is given back and all other memory stays.", "quantifier": "for all heaps, pools and the devices 0 and 1", "why_tests_cant": "the tests hold no GPU", "anchors": ["containers/int_pool.hpp:65-82"]}
{"id": "C640", "title": "Moving a pool of integers into another", "statement": "The move constructor of int_pool hands over the memory: the new pool holds the cells, and the end of the old one changes nothing.", "quantifier": "for all heaps, pools and devices", "why_tests_cant": "undefined behaviour does not show in output", "anchors": ["containers/int_pool.hpp:53-57"]}
{"id": "C641", "title": "Copies of vectors of owned pointers", "statement": "The copy of a pvector holds objects equal to those of the vector, in the same order, each of them new, and the vector copied stays as it is.", "quantifier": "for all heaps, vectors and objects", "why_tests_cant": "sharing of objects does not show in values", "anchors": ["legacy/labeled/pvector.hpp:45-48"]}
{"id": "C642", "title": "The end of a vector of owned pointers", "statement": "The destructor of pvector deletes exactly the objects the vector points to, null pointers being skipped.", "quantifier": "for all heaps and vectors with different pointers", "why_tests_cant": "leaks and double deletion do not show in output", "anchors": ["legacy/labeled/pvector.hpp:36-39", "legacy/labeled/pvector.hpp:32-33"]}
{"id": "C643", "title": "Moving a vector of owned pointers", "statement": "The move constructor of pvector hands the objects over, and the end of the old vector deletes nothing.", "quantifier": "for all heaps, vectors and objects", "why_tests_cant": "double deletion does not show in output", "anchors": ["legacy/labeled/pvector.hpp:50-54"]}
{"id": "C644", "title": "Assigning vectors of owned pointers", "statement": "After v=x the pvector v holds objects equal to those of x and nothing else, and v can be destroyed.", "quantifier": "for all heaps, vectors and objects", "why_tests_cant": "no test assigns one", "anchors": ["legacy/labeled/pvector.hpp:56-61", "legacy/labeled/pvector.hpp:63-69"]}
{"id": "C645", "title": "Leaving one element out", "statement": "pvector::remove(j) returns copies of all objects but the one at j, refuses every other j, and leaves the vector as it is.", "quantifier": "for all heaps, vectors, objects and positions", "why_tests_cant": "positions outside the vector are not tested", "anchors": ["legacy/labeled/pvector.hpp:75-83"]}
{"id": "C646", "title": "A factored fraction converts to its value and to its logarithm", "statement": "frational(p,q) with positive p and q converts to the real number p/q, and its log() is log p - log q, whatever the global table of primes held before; for every sorted list of primes with exponents log() is the logarithm of the conversion. Rounding is not modelled.", "quantifier": "for all tables of primes, all positive p and q and all factor lists", "why_tests_cant": "tests convert a few fractions with small factors", "anchors": ["math/frational.hpp:52-57", "math/frational.hpp:59-64"]}
{"id": "C647", "title": "Conversion respects multiplication and division", "statement": "The conversion of a product (quotient) of factored fractions is the product (quotient) of the conversions, the logarithms add (subtract), and multiplying by a positive int multiplies the conversion by it. Rounding is not modelled.", "quantifier": "for all pairs of factor lists, all tables and all positive ints", "why_tests_cant": "tests multiply a few fractions", "anchors": ["math/frational.hpp:52-64", "math/frational.hpp:96-98"]}
{"id": "C648", "title": "Copying an integer vector view copies it", "statement": "Itensor1_view::set(x) makes the target hold the entries of x and changes nothing else, on the host and on the GPU; a vector of another length is refused.", "quantifier": "for all views of equal length that do not overlap, all strides, memories and both devices", "why_tests_cant": "GPU builds are not tested, and strided copies there do nothing without an error", "anchors": ["tensor_views/Itensor1_view.hpp:103-113"]}
{"id": "C649", "title": "Filling an integer vector view", "statement": "Itensor1_view::broadcast(v) makes every entry v and changes nothing else when the stride is 1 and the view is on the host; all other views are refused.", "quantifier": "for all views, values and memories", "why_tests_cant": "tests fill one vector", "anchors": ["tensor_views/Itensor1_view.hpp:159-163"]}
{"id": "C650", "title": "Blocks and lists of an integer vector view", "statement": "Itensor1_view::block(i0,m0) shows the entries from i0 on and stays on the device; gtensor() lists the entries in order, wherever the view lies.", "quantifier": "for all views, blocks that fit, strides and memories", "why_tests_cant": "tests list host vectors only", "anchors": ["tensor_views/Itensor1_view.hpp:95-97", "tensor_views/Itensor1_view.hpp:169-174"]}
{"id": "C651", "title": "Rearranging a vector of integers", "statement": "permute(x,pi) puts entry pi[i] of x at i, refuses vectors of different lengths and positions outside the vector, and rearranging twice is rearranging once by the rearranged positions.", "quantifier": "for all vectors of integers and all lists of positions", "why_tests_cant": "positions outside are not tested; nothing checks them", "anchors": ["include/Cnine_base_helpers.hpp:65-72"]}
{"id": "C652", "title": "Mapping over one vector or two", "statement": "mapcar(v,f) is the list of the values in order; mapcar(x1,x2,f) has the value at the two entries i at i and refuses vectors of different lengths.", "quantifier": "for all vectors of all types and all pure functions", "why_tests_cant": "tests map short vectors", "anchors": ["include/Cnine_base_helpers.hpp:83-109"]}
{"id": "C653", "title": "Indentation is restored", "statement": "However blocks with an indenter are nested, and whether or not an exception goes out, base_indent is the former one afterwards; every line stands behind the indentations of the blocks around it, outermost first.", "quantifier": "for all nestings of blocks, lines and exceptions", "why_tests_cant": "tests do not look at the indentation after an exception", "anchors": ["include/Cnine_base_helpers.hpp:215-229"]}
{"id": "C654", "title": "Copying a tree makes new nodes", "statement": "The copy constructor of labeled_tree makes a tree of the same shape with the same labels out of new nodes, all different, and changes no node that was there.", "quantifier": "for all heaps and all trees of any shape and depth", "why_tests_cant": "tests copy small trees and do not look at addresses", "anchors": ["combinatorial/labeled_tree.hpp:49-53"]}
{"id": "C655", "title": "The end of a tree removes exactly its nodes", "statement": "The destructor of labeled_tree removes each node of the tree once and no other node; a copy outlives the original and the original a copy; after a move the end of the old tree changes nothing. This is so whatever was handed to push_back.", "quantifier": "for all heaps and all trees of any shape and depth", "why_tests_cant": "double deletes show only under a memory checker", "anchors": ["combinatorial/labeled_tree.hpp:30-33", "combinatorial/labeled_tree.hpp:55-59", "combinatorial/labeled_tree.hpp:103-105"]}
{"id": "C656", "title": "Branches have the label asked for", "statement": "branch(x) returns a child with the label x: one that was there, with nothing changed, or a new last child without children when no child has this label; the other trees stay as they are.", "quantifier": "for all heaps, trees and labels", "why_tests_cant": "tests ask for a few labels", "anchors": ["combinatorial/labeled_tree.hpp:95-101"]}
{"id": "C657", "title": "The end of an indexed map deletes exactly its objects", "statement": "The destructor of indexed_map and indexed_mapB deletes every object of the map once and no other, when no pointer is in the map twice.", "quantifier": "for all heaps and maps", "why_tests_cant": "double deletes show only under a memory checker", "anchors": ["containers/indexed_map.hpp:36-39", "containers/indexed_map.hpp:112-115"]}
{"id": "C658", "title": "Moving an indexed map", "statement": "A map made or assigned by moving answers as the source did, the source is empty, the former objects of the target are deleted once and no object is lost, also when a map is moved into itself.", "quantifier": "for all heaps and maps", "why_tests_cant": "no test moves such a map into itself or looks at deleted objects", "anchors": ["containers/indexed_map.hpp:45-50", "containers/indexed_map.hpp:129-134", "containers/indexed_map.hpp:144-151"]}
