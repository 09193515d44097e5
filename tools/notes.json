{
"C01": "Full statement; zero extents give undefined behaviour (division by zero).",
"C02": "False at rank 0 (callback never called, proved); proved for every rank >= 1.",
"C04": "False in general (loop variable shadows the argument; witness proved); value characterised exactly; agreement proved for i=1.",
"C05": "False in general (takes the largest stride*dim, not the span; witness proved); bound proved for nested strides.",
"C06": "Ascending ordering proved for all strides below INT_MAX; the descending ordering is wrong with zero strides (witness), proved for positive strides.",
"C07": "False for broadcast (zero-stride) views (witness); soundness proved for positive strides, completeness proved.",
"C08": "Coverage proved when the chunk is non-empty and fusable; undefined behaviour on an empty chunk proved.",
"C09": "Full statement; the unsorted removal is proved undefined.",
"C10": "covers(n,a,b,c) and is_contiguous are wrong (witnesses proved); disjoint and two-set covers exact.",
"C102": "False: C102_hash_fails with insertion-order iteration. Proved only for maps that list their entries in the same order.",
"C105": "All three claims are false; each has a theorem with the negation.",
"C106": "Both claims are false (one theorem each).",
"C110": "Witnesses that the claim is false of the code.",
"C112": "False of the code: p*=p is a permutation only for the identity (C112_square_exact).",
"C113": "Copy and assignment from another object are proved; self-assignment is undefined (C113_self_fails).",
"C114": "False of the code except for a=0, b=n (C114_exact); C114_fails is the witness.",
"C117": "index and operator[] are right where the sub-objects hold the right numbers, which is shown for k<=2; getN is wrong (C117_getN_fails).",
"C119": "Proved for trees with a non-empty path; the empty tree is undefined behaviour (C119_empty_fails).",
"C12": "Permutation and transposition exact; with_decreasing_strides is wrong with zero strides (witness proved), proved for positive strides.",
"C120": "Shown: undefined behaviour for every root out of range, and for a graph with a vertex out of range.",
"C122": "Shown: the one-cycle is a loop and cannot be packed.",
"C125": "All parts proved; the failing case is two children with the same label made by push_back.",
"C127": "Round trip proved for all trees; false part shown: the copy constructor of auto_array does not copy the entries.",
"C129": "Each expectation is refuted by a concrete graph.",
"C13": "Each sub-view proved; slice is unchecked, row accepts negative indices, block(dims) uses the lexicographic order, unsqueeze(0) is undefined (witnesses proved).",
"C131": "False: the value is read with the stride of the target (C131_relu_fails, C131_relu_ub_fails). Proved for equal strides.",
"C132": "False for strided views: the target is overwritten (C132_strided_overwrites, C132_strided_fails). Proved for contiguous ones.",
"C135": "False: outside three layouts the call silently does nothing (C135_mprod_silent, C135_mprod_fails). Proved for the handled layouts.",
"C137": "False for every non-square matrix: the right target is refused, a wrong one accepted and overrun. Proved for square ones.",
"C139": "False for views with gaps between rows, C139_fuse_iff gives the exact condition.",
"C14": "split and fuse exact; fuse01 makes no check (witness proved), proved when the two axes continue each other.",
"C140": "False for regular views with exactly one row (doubled, C140_one_row_doubled) and strided views with none (C140_no_rows_fails). Proved for all others.",
"C141": "False for regular views without rows (C141_broadcast0_fails). Proved for all others and for broadcast1.",
"C142": "False: alpha is ignored (C142_addBroadcast0_adds, C142_addBroadcast0_fails). Proved for alpha=1.",
"C144": "False: line 109 (and 141) reads the grid of y again instead of z. C144_agree_partial: correct if another operand has the common grid. C144_grid_fails: the grid of the third operand is lost, or a conflict unnoticed.",
"C148": "False: the code prints an unimplemented message and returns the zero tensor, for all such operands (C148_scalars_fails).",
"C152": "False: the code is the same as for the first operand (C152_back1_partial), so legal shapes are refused (C152_back1_fails) and square cells get rg times the transpose of x (C152_square_fails). Nothing else is missing.",
"C154": "False: a long row of a nested list overwrites the next row or runs past the block, unit(n,i) writes outside for i=n, and Ltensor::ones passes the fill code for uninitialised memory. Proved as negations with concrete witnesses (the last for all shapes).",
"C156": "False: the initializer-list forms always stack along axis 0, and the form for references removes the axis from the shape of the result and then throws (or writes past the shape when the axis is the last one). Proved for all lists.",
"C158": "False: a string is cut at its first blank or brace and ended by a quote, entries after the thousandth are dropped with valid still set (proved for all such objects), and end_of_clause searches forever in a text such as [[[1 (proved for every number of steps).",
"C16": "Proved on every internal path; false when all strides are zero (bulk path copies memsize()=0 cells, witness proved).",
"C160": "Refuted: without a batch argument the tensor has a batch axis of size 0; for_each_batch throws on unbatched tensors; batch(i) is unchecked; for_each_cell makes no call without grid; cell(ix) always throws for batched tensors.",
"C164": "Refuted: transposed grids give wrong rows, transposed cells wrong products, empty cells a division by zero.",
"C166": "Refuted: diag writes the stride to a wrong axis or out of range, fuse keeps the first axis's stride and runs past the end.",
"C168": "False: rank four has no case (C168_batches_fails shows nothing is computed; rank five loops over rank four), and convolve1d/convolve2d build a result of the wrong rank and throw (C168_make1_fails, C168_make2_fails). Convolve2D on given tensors with batches is right: C169_batches.",
"C17": "Proved on every internal path of add(x); false when all strides are zero (witness proved); scaled addition and subtraction proved in full.",
"C171": "C171_channels1_partial says what is added for every size; C171_odd_fails: for an odd total (e.g. a filter of two and the default padding) the gradient is shifted by one. The even case is C170.",
"C172": "The sums are right but overwrite what was in the gradient (C172_*_partial); C172_input_fails and C172_filter_fails are witnesses that earlier contributions are lost.",
"C176": "False: with padding 0 the filter row is read as one vector, which is wrong for other layouts (C176_layout_fails) and runs past the end of x for a result one longer than the unpadded one (C176_overrun_fails). Proved for nonzero padding along the second axis (C176_padded_partial).",
"C177": "False: add_mprod does nothing for layouts it does not know, and the slices of a packed filter with more than one position have such a layout; the result is zero (C177_zero_fails, C177_batches_fails, C177_blocks_fails). Proved when the slices have known layouts (C177_channels_partial).",
"C179": "False: line 55 bounds the third filter index by the length of the second axis (C179_short_fails, C179_long_fails). Proved what is computed when that is the shorter one (C179_short_partial).",
"C18": "Exact for row-major views; irregular views always compare equal when the dims agree (witness proved).",
"C180": "False as C177 (C180_zero_fails, C180_batches_fails). Proved when the slices have known layouts (C180_channels_partial).",
"C182": "False: with the largest padding the reversed filter is read as though its positions followed each other (C182_full_fails); with a further axis nothing is added for packed filters of more than one position (C182_channels_fails). Proved for known layouts (C182_channels_partial).",
"C188": "False of the code in six ways, each proved: the last axis is always refused (C188_last_fails, C188_gather_fails); the plain version compares no sizes and writes outside the target (C188_sizes_fails); the fast version exchanges target and source for strided slices (C188_strided_fails), is wrong with three remaining axes (C188_three_fails) and does nothing for more (C188_four_fails). The true part is C189, C190.",
"C19": "Proved for sum, norm2, max, min, diff2 without broadcast axes and for inp in full; broadcast sums and mismatched diff2 shapes are wrong (witnesses proved).",
"C195": "False: C195_leak_fails shows that every run leaves the first two objects (copies of input and output) undeleted; C195_shared_fails that three are left when one variable is both input and output. Memory of temporaries is released (C192).",
"C197": "Rank 0 is false (the number is dropped); all other ranks proved.",
"C198": "False for shapes with equally many elements (2\u00d73 minus 3\u00d72); differing numbers of elements are refused.",
"C20": "False at rank 0 (proved); proved for every rank >= 1.",
"C200": "False: a matrix times a vector reads past the end of the shapes, and doubles with zero lower halves (1.0, 2.0, \u2026) have product 0.  Only empty results of doubles are right.",
"C202": "False: these ranks give zeroes.",
"C204": "False: min(x) calls max().  Right when all elements are equal.",
"C205": "Rank 0 is false (gives 0); all other ranks proved.",
"C21": "Matrix-vector product proved; the transposed product uses the wrong extent (witnesses proved), proved for square matrices.",
"C212": "C212_left_partial: only the new tensor and the argument change, and the argument's columns become what is left after the projections; C212_argument_fails: whenever the first column exceeds the threshold and a later one is not orthogonal to it, the argument does change.",
"C213": "C213_complex_fails: columns (1,0) and (i,0) give two columns that are not orthogonal, since the inner product is taken in the wrong order.",
"C214": "False of the code: an assignment to a default-constructed tensor throws. C214_complement_fails, C214_intersection_fails, C214_eigenspace_fails: none of the constructors returns; C214_throws_fails: ComplementSpace throws for every real matrix.",
"C216": "C216_reach_partial: each list is what can be reached from its first node among the nodes left; C216_directed_fails: a condition holding in one direction only separates nodes.",
"C221": "False: line 84 has an extra minus sign, so the overload for three axes applies reflections (C221_reflections_partial says exactly which) and not rotations (C221_overloads_fails).",
"C222": "False: a slice paired with itself is multiplied by c-s (C222_same_partial), which does not keep inner products (C222_inner_fails).",
"C223": "Proved for indices in range (C223_inside_partial); indices are not checked and an index equal to the number of slices changes the cells behind the view (C223_outside_fails).",
"C227": "False of the code: the loops over summed letters take sizes and strides from the result instead of the operands. C227_product_fails: row times column adds the first term only. C227_trace_fails: with a result without axes the sizes are read outside the array. C227_square_partial: right when all axes have one size and the three views share their strides.",
"C228": "False of the code: in the nest for three summed letters the branch for a conjugated first operand swaps the cases of the second. C228_three_fails is a witness, C228_three_partial says exactly what is computed; all other cases are C225.",
"C229": "False of the code: such letters are never looked at. C229_second_fails is a witness for both functors, C229_second_partial says that the entry at index zero is used.",
"C230": "False of the code: the functors return without effect. C230_many_partial proves that for all such strings, C230_many_fails is a witness.",
"C231": "False of the code: both statements are for all strings of the kind. The real functor multiplies the first entries, the complex one branches on flags that have no value or reads in front of an empty part.",
"C232": "False of the code: x marks used letters. C232_placeholder_partial says for all strings that axes called x are left out, C232_placeholder_fails is a witness.",
"C233": "False of the code for sizes: C233_sizes_fails reads behind the first operand. C233_axes_partial: too few axes of the first operand are refused when one letter is shared (assert on the position).",
"C235": "False of the code for regular views: the flat path calls stdadd without the factor. Proved what each path adds, and a counterexample.",
"C236": "Sizes are not compared: counterexample with a larger x; the corner update is proved for smaller x.",
"C238": "Proved for cubes; counterexample with missing rows, refusal of all non-square results.",
"C24": "At most three transfer letters: full statement proved, result extents too. With four letters the fourth uses the wrong stride (witness proved); proved when the two strides agree.",
"C240": "Missing and false: one slice (doubled, proved for all contents), irregular views along axes 0 and 2 (refused), single cells along axis 2.",
"C241": "Missing and false: transposed sources along axes 0 and 2 (counterexamples), slices without rows along axis 1.",
"C245": "C245_operands_partial needs a last part that is not empty; C245_operands_fails shows that a scalar operand written last is lost.",
"C247": "C247_root_partial needs that only the root and the result are left open; C247_root_fails, C247_no_root_fails and C247_kept_root_fails give strings where the root is only a part, is missing, or depends on the order.",
"C25": "Transpose identity proved for at most three transfer letters and no gather letter; both excluded cases are wrong in the code (witnesses proved).",
"C251": "C251_args_partial gives the numbers as they are, one too high; C251_args_fails shows number and name wrong for ij,jk->ik.",
"C257": "AH, HA and NA refuse wrong sizes (_partial); AA compares nothing and reads past the second factor (_fails).",
"C259": "Right if the outer stride is the inner stride times the inner size (_partial); this is not checked, and Ctensor2_view::fuse01 has n0*s0 entries instead of n0*n1 (_fails).",
"C260": "The first stride is taken from the second axis (_fails); right for at most one row or equal strides (_partial).",
"C262": "First and second sizes are compared (_partial), the third is not: entries are lost or cells outside the result written (_fails).",
"C265": "On the fused views the result is exact (_partial); for slices of larger tensors cells outside the result are written, and sizes are compared only as a product or not at all (_fails).",
"C267": "The sums are stored, not added (_fails); what is stored, and that sizes are checked, is proved (_partial).",
"C268": "The products are stored, not added (_fails); what is stored, and that sizes are checked, is proved (_partial).",
"C269": "The sums are stored, not added (_fails); what is stored is proved for fitting sizes (_partial).",
"C27": "At most three transfer letters: full statement, result extents and refusals proved. Four transfer letters, a gather letter S shared with one operand and '*' are wrong in the code (witnesses proved); four letters proved when the strides agree.",
"C270": "Number and size of tiles and that every entry is covered hold for all sizes (C270_cover); exactly the entries of the view only if the tile size divides the axis (_partial); otherwise the last tile reads past the view, and an empty axis has one tile (_fails).",
"C274": "Proved for tables made by set; false after for_each_in_row of an absent row, which leaves an empty row whose first element is then read.",
"C278": "Wrong sizes and too large indices are refused; a negative index in the mask is not, and the product is then added to memory before r.",
"C28": "Formulas and adjointness proved when each pass has at most three transfer and three contracted letters; beyond that the passes accept the string and overflow or compute wrong values (witnesses proved).",
"C281": "The members nblocks and mblocks of the result are read by block() before they have a value, so the product is undefined behaviour whenever two blocks meet (C281_block_product_fails); proved exact if these members happen to hold large enough numbers.",
"C285": "False: the sizes are only those up to the last row and column with a nonzero entry. Proved when these are the last ones.",
"C286": "False: N0 and M0 of the copy are 0. Proved: lists and inverse are the same.",
"C289": "False for layouts whose last axes cannot be fused: fuse12 ignores the middle stride. Proved for three and four axes that can be fused.",
"C29": "Forward and both backward passes proved for every size with r of extent dim(x)-dim(y)+1 (forward: at most that) and, for the pass into x, a kernel no longer than r; extents are unchecked and a longer kernel is wrong (witnesses proved).",
"C290": "False: an index outside the result writes other memory. Proved: rows of different length are refused when the mask is not empty.",
"C294": "False: the base class function is not overridden because of a missing const, so the lambda is never called.",
"C295": "False: a pair that is not listed gives the first block, as do one and three indices. Proved: multi-indices of other lengths are refused.",
"C296": "False: indices are not compared with the sizes, a sparse axis behind the dense ones is undefined behaviour. Proved: tensors without dense axes are refused.",
"C298": "False: the factorial of the negative number is looked up in the vector without a check, which is undefined behaviour (C298_no_triangle_fails for (1,1,5), C298_no_triangle_all_fails for every such triple with a+b+c \u2265 -1). There is no case left in which the claim holds, except a triple already in the cache, which cannot happen.",
"C30": "Proved for every history, given that the two undefined reads inside free are harmless (see C33).",
"C301": "False: each of the three reads or writes outside a vector of strides (proved as undefined behaviour).",
"C302": "False for arrays of tensors: the copy allocates the entries without the padding and writes all of it. Proved for tensors without array axes.",
"C303": "False when both sides are the same object: the array is deleted first. Proved for different objects, with and without array axes.",
"C305": "False: the loops go over the first cells of the padded memory, so the last entries are not computed (witness).",
"C306": "False: only the number of entries is compared, not the dims (witness). Proved for equal dims.",
"C31": "Proved for every history, given that the two undefined reads inside free are harmless (see C33).",
"C311": "False: the stride before the first is read (undefined behaviour).",
"C315": "False: the padding is shown in place of entries (witness).",
"C316": "False: with seven axes one loop tests the wrong variable and never ends, with eight nothing is printed. Proved for one to six axes.",
"C318": "False: the function is not implemented and returns memory that was never written.",
"C323": "False: the wrapped pointer dangles when the other object is destroyed or assigned to, or the owner frees the array (C323_dangling_fails). Proved: the wrapping object reads what the other reads while both exist.",
"C325": "False for objects made without arguments: they have no blob and every access is undefined (C325_empty_fails). Proved for objects made from n elements, which have at least one cell.",
"C327": "False: guards destroyed in another order leave the manager of a destroyed guard in place (C327_order_fails). Proved: a guard puts back the manager there was when it was made; C326 has the nested case.",
"C328": "False: malloc takes an int, so that 2^30 floats ask for 0 bytes (C328_bytes_fails). Proved below 2^31 bytes.",
"C33": "False: every call of free uses an erased map node (and may read the list sentinel); under the assumption that both reads are harmless release always succeeds.",
"C331": "False: insert(key, pointer) with a pointer taken from an entry gives it two owners and the destructor deletes it twice; first() of an empty container is undefined. Proved: what the insertion itself does.",
"C332": "False for wrappers copied after their first call (double delete, use after free) and for wrappers made from a function that returns a value (dangling reference). Proved for all other programs.",
"C335": "False if an object occurs twice in the first pack or in both packs, and the const operator[] does not refuse a negative index. Proved for packs without common objects and indices in range.",
"C339": "The imaginary part moves by i*s4 instead of i*s5: right for i=0 or equal strides, else wrong.",
"C34": "malloc(0) proved; requests from -254 to -127 alias the next block (proved), lower ones fail.",
"C341": "False: the checks compare with one axis too few, so the right number of axes is refused and one fewer reads past the end.",
"C342": "Right when a step along the first axis is as long as the second axis; false for every other view with all sizes positive.",
"C346": "False: the new tensor has six axes, so every view with an entry is refused.",
"C347": "Proved for compact views and, for inner axes, views whose outer axes and inner axes lie close. False for one slice (doubled) and other strides.",
"C348": "Proved as for the reductions in place, for results apart from the view. False for one slice (added twice).",
"C349": "Proved for compact views with at least one slice. False without slices (writes outside) and for other strides.",
"C350": "Right when the index is 0 or the stride equals the size; in all other cases every entry is misplaced.",
"C351": "fuse(i), fuse01, fuse12 are right when a step along the first axis is as long as the second axis. fuse23 has the wrong size unless sizes agree.",
"C352": "Proved for compact views (matricize) and views in which every step is as long as the next axis. False otherwise.",
"C353": "The last index is ignored: right only when it is 0.",
"C354": "Right for compact strides (CtensorView) or twice those (CtensorD_view). False for the interleaved layout of CtensorView and for split arrays of CtensorD_view.",
"C355": "Right for offsets below 2^31. False for larger strides, which are cut to 32 bits, and larger offsets.",
"C356": "Right when the template strides are those of the view; strides are never compared, and a vector of any size is taken for a scalar.",
"C359": "Right when every step is as long as the next axis. With gaps the number of columns is wrong.",
"C36": "History refinement proved for all histories with nonnegative lengths and indices (out-of-precondition operations throw and leave the pool unchanged); negative index and negative length witnesses proved (undefined behaviour, not reported).",
"C360": "False for all arguments: the sixth number is written past the end.",
"C365": "False: only the first matrix of the stack is an identity, and with an empty leading axis ones are written past the array. Proved: what the constructor does for every stack with entries.",
"C367": "False: views of padded tensors have compact strides and read other cells; copies and views forget the number of batches (witnesses).",
"C37": "cat proved for pools in which every row was reached by pushes; to_tensor proved when the rows are full; to_tensor with spare room copies unwritten cells (witness).",
"C373": "False for every tensor: the strides of a window are the list holding the device number, so a second index reads outside it. Proved: fewer axes are refused.",
"C375": "False: the number of rounds is computed from the size of the other tensor, and the second round writes past the end (witness). Proved: right when the number of rounds happens to be right.",
"C377": "False: a chunk past the end of its axis is written over the next rows, empty tensors divide by zero, a slice of a vector has no axes (witnesses).",
"C379": "False: the size 2 of the first axis of [2,0] is answered as 0, and the transpose divides by zero (witnesses).",
"C38": "Pairs read back after any history of vector pushes, element appends and sets; construction from lengths and from a map proved. False for sets with more than one element (witness), total() counts reserved room (witness).",
"C382": "False: divide_cols divides a new tensor of zeros; normalize_cols divides rows by their norms (witnesses). Proved: what both do for all tensors.",
"C384": "False: the first axis is refused for every tensor, and an axis with one entry is doubled (witnesses).",
"C388": "False of the code: assigning a tensor to itself or a view of itself, and appending a slice of itself when it must grow, read a released array; self move-assignment loses the entries; move-assignment to a view does not write through; slices of no entries divide by zero; after growth, reshape records more room than the array has and later slices are written past its end. C386 and C387 give the arguments for which the claim holds.",
"C39": "False (first add_vec overwrites the start offset of list 0; witnesses, also for the header and the row constructor); lists added after the first are proved readable.",
"C390": "Proved when the destination holds zeros. False otherwise: later blocks also get what earlier blocks held before.",
"C391": "Proved for all n but 1. For n=1 the block is added to itself first, so the destination gets it twice.",
"C392": "Proved for n=2. For n=1 it writes into a buffer of no cells; from n=3 on it adds the imaginary buffer to the real one.",
"C394": "Proved for lengths 1 and 2. All triples get place 0, and of four or more indices only the first counts.",
"C398": "C398_subtract_fails: for all packs, subtract runs over x.tensors instead of its own, so it takes every part of x from itself (x becomes zero) and leaves the target as it was; C398_minus_fails gives numbers. C398_zero_partial: right when y is zero.",
"C40": "Histories of set/resize/reserve proved to keep values; copy constructor does not copy (witness), reading beyond the end reads an unwritten cell (witness).",
"C400": "C400_replace_fails: map::emplace does nothing when the key is in use, for all packs; the new part is dropped silently.",
"C401": "C401_assign_partial: when every key of the target is in x and the arrays are separate. C401_assign_fails: a key x does not have reads a null pointer (and adds the key to x); keys only x has are not taken over.",
"C402": "C402_gradient_partial: for classes whose copy constructor copies the array, or if the first command is add_to_grad(x,c) or get_grad(). C402_first_fails: for TensorView the copy constructor shares the array, so the first add_to_grad(x) makes the gradient an alias of x; the next additions overwrite x.",
"C405": "False: a matrix with more than 1024 rows and more than 65535 columns is left as it is (C405_large_fails); the error of the launch is not looked at.",
"C406": "False: the kernels for the entries after the last multiple of 1024 are launched with no block, so those entries are left as they are; in particular all vectors shorter than 1024 (C406_short_fails). The partial theorems say what happens for every length.",
"C408": "False: with at most 1024 entries but more than 64 along the last axis nothing happens, and if no two sizes have a product of at most 1024, strides are mixed up and some entry of a compact target is never touched.",
"C41": "Proved for the edge-matrix and map constructors and for n_ops. False for the constructor from arrays of sources and targets (throws as soon as there is one edge: C41_ofArrays_fails); the bounds are -1 for an empty matrix and negative indices pass.",
"C411": "False: the entries are doubled.",
"C412": "Holds if a batch has at most 2048 entries or rows have a multiple of 1024 entries; otherwise the last launch folds the wrong entries (C412_tail_fails).",
"C418": "False for compact tensors when the kernel _bt is used with rows as blocks: it takes blockIdx.x for blockIdx.y, so only the first row is rotated.",
"C419": "False: the kernels assign. The partial theorems say which values.",
"C42": "Proved for maps made by the constructors, appending, inverting and sorting, including the cached inverse under sort. The stated staleness after push_back is proved (C42_stale, C42_stale_fails).",
"C420": "False: for large sizes nothing happens and no error is raised.",
"C421": "False: there is an order of the threads that loses a factor.",
"C423": "C423_block_fails: a vector of exactly 1024 entries is left as it is, neither branch has it; C423_tail_fails: beyond the last multiple of 1024 nothing is changed, for the second launch starts at the first entry again (and adds there once more). Lengths below 1024 and multiples above are C422.",
"C425": "C425_tail_fails: columns beyond the last multiple of 1024 are left as they are, for the last launch starts at the first column. Other lengths are C424.",
"C427": "C427_last_axis_fails: with fewer than 128 entries and a last axis over 64 the launch is refused by the hardware (64 threads along z) and nothing is done; C427_tail_fails: entries beyond the last multiple of 1024 of a long last axis are left as they are. Other shapes are C426.",
"C43": "Full statement.",
"C430": "False. C430_overrun_fails: when output minus input plus filter minus 1 is 1 the padding is rounded to 0 and the kernel without tests reads beyond the input (shown with a run that reads an unallocated cell). C430_large_fails: with more than 1024 pairs of output channel and further index RtensorConvolve3d launches nothing and leaves the output as it was. The cases that work are C428 and C429.",
"C432": "False. C432_channels_fails: the grid has one block along y, the kernel writes to channel blockIdx.y=0, so all other channels of the output are never written, in every interleaving.",
"C433": "False. C433_padded_fails: the kernel reads x at output plus filter position without taking the padding off; shown on three positions and padding 1. Without padding see C431.",
"C435": "Proved for the first call. False later: the copy is kept after push_back, set and assignments (C435_stale_fails).",
"C436": "All five fail, shown by programs: self-assignment, views that grow, moved-from pools, copies on the GPU, the GPU copy of a view is never released.",
"C44": "C44_gather_partial/_rows_partial: unweighted maps without fixed-k maps, one block per row or rows without padding, indices in range, source and target apart. Missing: padded rows with several blocks (false: C44_padded_fails), out-of-range indices (undefined: C44_range_fails), weighted maps (false: C44_weighted_fails; the weighted pass alone: C44_weighted), packs with several blocks per row (false: C44_pack_columns_fails), parallel order of the pack rounds. The adjoint identity is full.",
"C440": "Fails: self-assignment, assignment to a tensor with an array on the GPU, assignment across devices, the way back from the GPU, stale arrays on the GPU, moved-from tensors, push_back on the GPU, rows appended to a view share cells with the owner's.",
"C441": "Proved when neither tensor has spare capacity (for example copies). False otherwise: other capacities are called different, and equal capacities compare cells never written.",
"C443": "Proved when tensors with at most 1024 entries have at most 64 along the last index. Otherwise the launch asks for more than 64 threads along z and nothing happens (C443_31_fails).",
"C444": "Proved for more than 1024 entries and for tensors with one entry along the last two axes. For other small tensors the launch has n0*n1 threads along x instead of n0*n1*n2 ones, so entries are left out and cells behind the result are changed (C444_fails).",
"C445": "Proved when the second strides of the factors agree. The kernel uses the stride of x for y (C445_02_fails).",
"C446": "Proved for more than 1024 entries along the last index and equal last strides. The kernel uses the last stride of x for y, and since the branches do not return, the sum is added four times to small tensors (C446_fourfold, C446_fails); two or three times to those in between, for which no theorem is stated.",
"C449": "Proved for row-major tensors. False otherwise: line 69 builds a tensor on the GPU from the source, whose constructor assigns the source again, without end (C449_never_fails). For types other than int, float and double nothing is copied (C449_complex_fails).",
"C45": "Inversion keeps weighted edges but not the column counts (C45_inv_columns_fails); sort turns weights into integers (C45_sort_fails) or is undefined (C45_sort_ub_fails); the constructor from arrays throws (C45_ofArrays_fails).",
"C450": "Proved for row-major tensors. False otherwise: the entries are put in row-major order but the old strides are kept (C450_strides_fails, C450_transposed_fails).",
"C452": "Proved when the sizes after merging are ones the kernels handle. False for four axes or more that do not merge: nothing is copied (C452_four_fails).",
"C453": "False: from the host to the GPU a vector with gaps is assigned without end (C453_gaps_fails). What holds is C451.",
"C455": "False of the code: the leading dimension of an empty factor is 0, which cuBLAS refuses, and CUBLAS_SAFE ends the program. C455_empty_fails shows it for every regular factor with no columns.",
"C457": "False of the code: the last strides of result and batch are not used, and a factor that is neither regular nor transposed does nothing. C457_strides_fails has both; C456 proves the rest.",
"C459": "False of the code: the strides of the factors are not used. C459_strides_fails; C458 proves regular factors.",
"C46": "Proved for the constructor from a vector. False for the single-map constructor and for push_back.",
"C462": "cublasSasum adds absolute values. C462_reduce_partial proves the sum for entries that are their own absolute value, C462_negative_fails is a vector with another.",
"C463": "False of the code: axpy of the tensor with itself adds c times the entry. C463_twice_fails proves what is computed for tensors without gaps, C463_times_fails and C463_gaps_fails are examples.",
"C466": "False of the code: r(i,j) is multiplied by y(j) and x is not used. C466_columns_fails.",
"C468": "False of the code: n0*n1 floats of 2*n0*n1 are added. C468_half_fails; Ctensor3_view has the same call.",
"C470": "False: on the GPU x is added to r first and then r is subtracted from itself, so zeros remain; on the CPU x remains (C470_own_fails).",
"C471": "False: the GPU branch calls axpy of the array onto itself, which gives (1+c) times the entry; C471_twice_fails says so for all inputs, C471_times_fails shows both results for c=2.",
"C475": "False unless the two groups of axes have the same sizes: the GPU branch creates the result with the dims of the argument (C475_shape_fails). C475_square_partial proves the equal case.",
"C477": "Refuted for stacks: only the first matrix gets ones, with sizes 0,6,6 a one is written to the imaginary parts. C477_matrix_partial proves a single matrix.",
"C479": "Refuted: after move assignment the pointer to the imaginary parts is null (x.arr is copied after it was cleared), and both assignments use delete for an array. C479_move_partial proves the moving constructor.",
"C482": "Refuted: add(x,c) with itself uses the new real parts, add_conj(x,c) conjugates c instead of x, add_ReLU_back adds the real part of g to the imaginary part, norm2 of i is -1. The partial theorems say what add_conj(x,c) and norm2 compute.",
"C486": "Refuted: the number of rounds is computed from the size of x and the axes of this tensor. C486_addChunkOf_partial proves it when that number is right.",
"C488": "Refuted: transp and herm of an empty tensor divide by zero; the slice after the last is taken from the next row.",
"C494": "Proved when there is at least one term. With no terms and add_flag false the result cells keep what they held (C494_empty_fails, C494_junk_fails).",
"C495": "Proved with add_flag. Without it every round overwrites the result, so only the last pair of cells counts (C495_inner_fails, C495_witness_fails); on the GPU nothing is done (C495_gpu_fails).",
"C497": "The check asks for one cell more than a convolution has: with the right sizes the map throws (C497_sizes_fails); with one cell too many the result is right.",
"C498": "CellwiseUCmap throws for every array on the CPU, BroadcastBinaryCmap reads an unset member, CellMask2r::push reads through an empty list's end, the accumulator without add_flag throws. What works besides is in C498_other_partial.",
"C50": "Proved: a stored entry is found. The rest is false: lookup of an absent entry returns an entry of the next row or reads past the end (C50_absent_fails).",
"C502": "The real parts are right; to the imaginary parts the real part of y is added (C502_imag_fails); with MprodBiCmap an addition can be lost (C502_race_fails).",
"C503": "False: the launches are commented out, or the grid has no block along y and the launch is refused.",
"C507": "False: there is no return after the branch for one batch, so the function is called a second time for each batch, with slices of x that do not exist (C507_twice_fails, C507_sum_fails). Proved: the first calls are the right ones.",
"C508": "False: the rows are divided by their norms instead (C508_normalizeCols_fails). Proved: what it does to the rows, and that the rest is kept.",
"C510": "False: the GPU branch flips the sign of the imaginary part of c twice and adds c times x (C510_fails); the CPU branch adds conj(c) times x (C482). Proved: what the GPU branch adds.",
"C511": "False: axpy adds the product to the old value, and the imaginary part uses the new real part (C511_fails). Proved: the exact result.",
"C514": "False: the result keeps the sizes of the argument (C514_shape_fails). Proved: right when both groups of axes have the same sizes.",
"C517": "False: nbu (-1) is put before the sizes, so that the result has an axis of size -1; with more than 30 entries one number is allocated and the copy overruns it (`C517_getCell_fails`, `C517_getCell_large_fails`). `C517_getCell_partial`: up to 30 entries the numbers are copied.",
"C518": "False: `Gdims(1)` is one axis of size 0, so there is no tensor; more than 32 entries overrun the memory, and add_broadcast always throws.",
"C519": "False: the sizes get a first axis of size nbu = -1; the function is never called, and from 31 to 62 entries the code divides by zero.",
"C522": "False: the constructors do not set k, so cell(i), cell_combined_size and as_arrayshape use an uninitialised number.",
"C523": "False unless the array gets as many axes as the tensors have (`C523_changeArrayshape_partial`): the loop over the strides of a tensor runs to the number of axes of the array. With more axes strides outside the vector are read, with fewer the last strides are zero.",
"C525": "False: inplace_scatter_div multiplies, and the other two compare the sizes of the array with all sizes of x and always throw.",
"C527": "False: one product is computed; only the first tensor of the array gets it.",
"C529": "Proved for arrays without axes of size 0; with such an axis, not the first, the code divides by zero (`C529_zero_fails`).",
"C53": "False: C53_lost_wakeup_fails is a schedule that loses the wake-up (maxthreads 1, two tasks); with maxthreads 0 no schedule runs the first task (C53_zero_threads_fails). C53_only_lost_partial shows there is no other way to stop before the end. C98 proves progress when nobody has to wait.",
"C533": "True of regular tensors (C533_equal_partial). False in general: operator== compares memory, so a matrix and its transpose over the same memory are called equal, but their hashes differ (C533_strides_fails).",
"C541": "False: the matrix is multiplied by its transpose and not by the conjugate of its transpose, so the unitary 1 by 1 matrix (i) has error 2 (C541_complex_fails).",
"C542": "Proved where the launch is allowed by the GPU; tensors with n3>64 and n1*n2*n3<=1024 launch nothing (C542_expand_fails), too large tensors are left unchanged, and the CPU version stores where the GPU version adds (C542_devices_fails).",
"C543": "Proved for at most 1024 columns or entries; a row of 1025 columns is left unchanged (C543_contract_fails), and the CPU version stores where the GPU version adds (C543_devices_fails).",
"C544": "Proved for matrices with at least one column; without columns every thread divides by zero (C544_otimes_fails).",
"C545": "Proved for the first half of the floats of each row; the other half is left out because the number of complex entries is passed as the number of floats (C545_accumulate_fails).",
"C546": "The CPU version adds (C546_relu_cpu); the GPU version replaces the cells by the rectified values (C546_relu_partial, C546_relu_fails).",
"C55": "False with two threads: C55_race_fails is a schedule in which the callback of batch 0 receives the cell of batch 1. What is true (one callback per batch and cell; right cells when sequential) is C99.",
"C551": "Proved for both checks; the constructor of an index from a vector drops negative entries, so a vector outside the range can pass (C551_negative_fails).",
"C554": "Proved for windows at most one larger than the image; for larger windows the size is negative (C554_convolve_fails).",
"C555": "Proved for indices with entries; the hash of the index without entries reads an entry that does not exist (C555_hash_fails).",
"C556": "Proved for a single block of one entry and fewer than 1024 columns. Wrong otherwise: the kernel reads the table of rows in a layout that to_tensor no longer writes, takes the strides of the block tensor for those of a matrix, visits as many blocks as there are rows, and nothing is launched from 1024 threads on.",
"C557": "The GPU branch calls the function of the product that is not transposed; proved for a single block of one entry on the diagonal.",
"C56": "False in general: rebinding a key uses an invalidated iterator (C56_rebind_key_fails, from every consistent state) and binding a value to a second key breaks the inverse (C56_rebind_value_fails). Proved for all histories without rebinding; exact behaviour of insert in C100.",
"C561": "False: the member k is not set in a copy, so cell() reads it uninitialised (also in cell-wise products); Gdims(1) is a list of one zero, so the array has no cell and add_broadcast always throws; the sizes of the array are compared with all sizes of x, so scatter_add throws.",
"C562": "Proved when no size is zero. When the axis has size 0 and is not the first the code divides by zero (C562_zero_fails).",
"C564": "False: the operation multiplies (C564_scatterDiv_fails).",
"C565": "False: the cells of the result get all sizes of the array. Proved: the conjugates are stored, at the distances of the argument (C565_conj_partial). On the GPU only the first cell is handled (C565_gpu_fails).",
"C568": "C568_pool_partial needs a list that is not empty; C568_pool_fails shows the pack of an empty list",
"C57": "Full statement for banks and caches indexed by one pointer, pointer and argument, two pointers, three pointers (and argument) and lists of pointers, for all histories of lookups, insertions and key deaths and all makers, including makers that throw. Makers that call the same bank again are not modelled. object_bank and once: C107, C108.",
"C571": "C571_assign_partial needs a source with an array; C571_assign_fails and C571_self_fails show the other cases",
"C572": "C572_cat_partial needs at least one pack and equal numbers of sizes; C572_cat_fails shows the other cases",
"C573": "C573_view_partial covers temporaries that are views; C573_move_fails shows that all others throw",
"C575": "C575_equal_partial needs directories without spare rows; C575_equal_fails shows packs after push_back",
"C576": "C576_own_partial needs room; C576_own_fails shows the other case",
"C577": "C577_reserve_partial needs n>0; C577_reserve_fails shows n=0",
"C578": "C578_new_partial is about the new pack; C578_old_fails about the old one",
"C579": "Proved for n0=n1. For other grids false: the stride of the first coordinate is n0 instead of n1 (witness: 2x3 grid, the row of point (1,0) gives the value at (0,2)).",
"C58": "Full statement for all legal histories; copies and assignments: C106.",
"C581": "Proved for cubes. For other grids false: the strides are n0*n1 and n1 instead of n1*n2 and n2 (witness: 1x2x3 grid).",
"C583": "Proved for bilinear matrices of square grids. False for trilinear ones: they are declared with n0*n1 columns, so counting the columns writes outside the array (witness: 2x2x2 grid, one point).",
"C585": "Polar angle proved. The azimuth is wrong: M_2_PI is 2/pi, not 2*pi (witness: two directions).",
"C586": "Everything but ones is proved; ones_fails: every entry is 1+i, whatever the sizes.",
"C587": "Proved for copies and for assigning to a view or an empty object; assigning to a tensor that owns its array deletes with the wrong form of delete, undefined for every such tensor.",
"C588": "Proved for parts of the same sizes; other sizes are not refused (ofParts_fails).",
"C59": "Full statement: lookup after any insertions (the last pointer with a key wins), agreement for distinct keys, reading an absent key inserts the null pointer.",
"C590": "Proved when the number of entries agrees; a view with more entries is not refused and reads past the end (shape_fails).",
"C591": "Proved on the CPU; on the GPU the real parts change sign instead; transp returns an untransposed copy.",
"C592": "All proved but the complex multiple, which does nothing (addC_fails).",
"C594": "Proved: whatever complex division is, the result has the quotients of the parts; div_fails is a wrong quotient.",
"C595": "Proved for inp, norm2, diff2, add_inp_into; add_norm2_into adds the sum of squares, -1 for the number i.",
"C596": "Proved for selector 0 (the same product is added for every selector); conj_fails: with selector 2 nothing is conjugated.",
"C598": "Proved for contiguous tensors, for reading through views with any strides, and for torch(); of_fails: other strides write past the end; view_fails: adding through a transposed view is wrong.",
"C599": "False for the object itself: assigning a bundle to itself frees the array and copies the new array onto itself (undefined, C599_self_fails). A single random complex number made with nbu=-1 has imaginary part 0 (C599_random_fails). Everything else is proved.",
"C601": "Proved for equal shapes, and refusal for the functions that check. add_abs, add_pow, add_exp, the rectifiers and the sigmoid do not check, and mixing a number with a bundle reads a null pointer or an unset number (C601_unchecked_fails).",
"C603": "Right for single numbers. For bundles add_sum adds nothing and sum returns the number 0 (C603_bundles_fails).",
"C605": "The rectifier is right. add_norm2_back adds only the derivative by the real part (C605_norm2_partial, C605_norm2_fails); add_abs_back adds plus or minus the gradient, which is not the derivative of the modulus (C605_abs_fails).",
"C606": "False for operator()(Gindex) on tensors with two axes: it searches the map that such tensors never use and always returns 0 (C606_get_fails). Everything else is proved.",
"C610": "False in general: get_cellstride() returns the stride of the first axis of the tensors, not the distance between tensors (C610_cell_fails: every tensor but the first is looked for at the wrong place whenever the first tensor axis does not have size 1; C610_witness_fails: 0,1 and 2,3 give 1,2 as the second vector). Proved when that axis has size 1.",
"C611": "False in general for the same reason (C611_broadcast_fails: 0,1 copied to two vectors gives 0,0 and 1,3). Proved when the first tensor axis has size 1, with the refusal of other sizes.",
"C612": "plus of two arrays is proved. plus(y) and minus(y) with one tensor return an unchanged copy, since their bodies are commented out (C612_one_fails for all inputs, C612_witness_fails).",
"C613": "Proved, with the refusal of other sizes, except for arrays that are empty from the axis on: there every axis but the first makes the function divide by zero (C613_empty_fails for all such arrays, C613_witness_fails).",
"C614": "The sum is proved for matching sizes. False: line 580 compares each size with itself and the last size is never compared, so other sizes pass the check and the function writes behind the end (C614_sizes_fails); empty arrays divide by zero along every axis but the first (C614_empty_fails).",
"C618": "Holds on the host (C618_move_partial). C618_move_fails: the moving constructor leaves dev at its default 0, so for every vector on the GPU the new one claims to lie on the host, does not hold the list there, and its destructor calls delete[] on a GPU pointer.",
"C619": "Holds when the unset member happens to be 0 (C619_filled_partial). C619_filled_fails: line 51 passes the member dev, not yet set, instead of the argument; with any other content the fill goes through a GPU pointer.",
"C620": "Holds for all programs that name only devices 0 and 1 and do not move from a vector on the GPU (C620_ownership_partial). C620_ownership_fails: a vector made on the GPU, moved from and destroyed is undefined.",
"C622": "Copies of objects already made give that object (C622_copy_partial). C622_copy_unmade_fails: make_obj is not copied, so every use of a copy of an object not made yet throws. C622_copy_not_watched_fails: a copy of an object already made never reaches the monitor it points to.",
"C623": "Holds for positions that are not negative (C623_push_partial, C623_push_refused). C623_push_fails: the check is done in size_t, so every negative position whose end lies inside the buffer passes and the write starts before the buffer.",
"C624": "Holds for numbers that are not negative (C624_reset_partial). C624_reset_fails: a negative number, compared as size_t, replaces every buffer by one of a single cell.",
"C625": "Holds for buffers without memory (C625_copy_partial). C625_copy_fails: the implicit copy has the same pointer, and destroying both is undefined for every buffer with memory.",
"C627": "Holds for buffers made empty and then given a size (C627_no_leak_partial). C627_no_leak_fails: the constructor with a size allocates the host side twice and forgets the first block, for every size.",
"C628": "Room for n cells holds only when the buffer already had it (C628_min_size_partial). The comparison is the wrong way round: C628_min_size_fails (asking for more does nothing) and C628_min_size_shrinks_fails (asking for less throws the cells away).",
"C629": "Proved on the host for all strides and on the GPU for regular matrices; proved that on the GPU nothing is copied and nothing reported when one of them is not regular, since the line for that case is commented out, and that a host matrix set from such a GPU matrix is filled with zeros (C629_mixed_fails).",
"C630": "Proved on the host when all products and sums fit into an int; proved that add on the GPU never changes anything, and that a sum that does not fit is undefined.",
"C631": "Proved on the host when all products, partial sums and results fit; false in general: with rows (65536,65536) and (65536,-65536) the product is 0 but the first term overflows.",
"C632": "Proved for sizes of -1 and above; for every smaller number the overload for views that can be changed returns a view of negative size.",
"C633": "Proved on the host when both strides are 1 and the sums fit; proved that with any other strides the target is overwritten by x, since the loop calls set in place of inc.",
"C634": "Proved on the host for all strides when products and sums fit; proved that on the GPU nothing is added and nothing is reported.",
"C635": "Proved on the host when all partial sums fit; proved that the result on the GPU is always 0.",
"C636": "Proved for targets whose three sizes are equal, when everything fits; the loops over rows and columns run to n0 and n1 in place of n1 and n2, and n1 is compared with the columns of y: proved that targets with n1 different from n2 are refused and that one matrix of two rows gets only the first.",
"C637": "Proved on the host; proved that copying any pool on the GPU is undefined, since std::copy reads the GPU pointer on the host.",
"C638": "Proved on the host; proved that the end of every pool on the GPU is undefined, since delete[] is called on memory from cudaMalloc.",
"C64": "Sums and negatives are proved congruent and in range. Differences are congruent but negative when the first operand is the smaller one; C64_sub_exact says exactly when, C64_sub_fails is a witness.",
"C640": "Proved on the host; dev is not handed over: proved that a pool on the GPU says it is on the host afterwards, is not brought back by move_to_device(0), and that its end is undefined.",
"C644": "Proved for the body of the assignment into a vector without elements. False in general: both functions lack a return statement, and the old pointers stay in the vector after their objects are deleted, so that its end is undefined (proved for every vector with an element).",
"C648": "Holds on the host and for stride 1 on the GPU. False for strided views on the GPU: the line is commented out, nothing is copied and nothing reported (C648_set_fails).",
"C650": "Blocks are proved, and lists of vectors on the host. False on the GPU: the list is all zeros (C650_gtensor_fails).",
"C651": "Proved for positions inside the vector. False outside: nothing checks the positions, the access is undefined (C651_outside_fails).",
"C655": "Proved for trees whose nodes are all different. False when push_back was given one pointer twice: the end of the tree is undefined (C655_shared_fails).",
"C658": "Proved for the move constructor and for the move assignment of indexed_mapB into another map. False: moved into itself a map loses everything (C658_self_fails); the move assignment of indexed_map has no return, and its body does not delete the former objects (C658_old_fails).",
"C66": "The group laws are proved for operator*, identity, inv, inverse, but operator*= composes in the other order (C66_mul_assign says exactly when it agrees, C66_mul_assign_fails gives a witness).",
"C68": "for_each and the count of what it lists are proved for every n, k>=1 and every history of requests; getN is wrong (C117_getN_fails). k<=0 is not modelled.",
"C70": "Weights, edge visitor, neighbours and the edge count are proved for all histories. False parts shown: a self-loop counts half an edge, and read-only queries insert empty rows which make equality fail.",
"C71": "Packing writes exactly the buffer, and reads back, when the number of self-loops is even; with an odd number the buffer is one word short (C71_loop_fails).",
"C74": "Full statement; C74_grid3 and C74_grid4 state exactly that the third operand's grid is ignored (C144 is the negation of what was meant).",
"C76": "Proved for non-empty vectors of int (negative ones too) and non-empty vectors of non-empty vectors with a text shorter than 2^31 characters; strings read back whatever they contain. False for empty vectors: the one element read is uninitialised, an empty vector of vectors reads back with one element (negations proved).",
"C77": "False: operator*= computes the imaginary part from the already overwritten real part. C77_result states what it computes for all arguments, C77_mulEq_partial when this is the product, C77_mulEq_fails a counterexample.",
"C78": "Proved for contiguous views; false for strided and broadcast views (witnesses proved).",
"C81": "Proved except for results all of whose strides are zero.",
"C82": "False; exact behaviour for axis 0 proved, expected result only when axis 0 has extent 1.",
"C83": "Proved for row-major operands; strides are ignored (witness proved).",
"C84": "False: overwrites (witness and exact behaviour proved); agrees for a zero start.",
"C85": "Proved for equal contiguous strides; false for other strides, gradient ignores x (witnesses proved).",
"C86": "add_einsum(r,x,gmap) proved for at most three further common letters; operator()(x,gmap) is undefined for every input with a gather letter (proved).",
"C87": "Proved for source layouts with nested decreasing strides (row-major in particular); false for a column-major source (witness) and undefined for zero source strides (proved).",
"C88": "False of the code: edges moved into fixed-k maps become (0,0) (C88_grade_zero, C88_grade_fails). C88_grade_partial covers the case in which nothing is moved.",
"C89": "False as stated: C89_vec_fails. C89_vec_partial says what it does decide.",
"C90": "Dense constructor proved; from_list always throws on non-empty lists (C90_fromList_fails).",
"C91": "False: C91_negative_fails.",
"C92": "False: C92_eq_values_fails.",
"C93": "False: C93_csrmatrix_shape_fails, for every matrix with an entry.",
"C94": "False: C94_stale_fails; without changes the cached transpose is right (C94_cached_partial).",
"C95": "False: C95_pushBack_fails."
}
