# Formal model of cnine: design

Source: `/repo` (risi-kondor/cnine, C++).  Model and proofs: Lean 4 in `/verif/lean`.
The code was read as text; nothing was built or run.

## Layout

* `Verif/Model/*.lean`: executable definitions, one per C++ function, each citing file and lines.
* `Verif/Lemmas/*.lean`: helper lemmas about the model.
* `Verif/Props/*.lean`: small independent specifications, the property theorems and,
  beside each theorem, an `example` with a concrete case that meets its hypotheses.
* `MANIFEST.json`: property -> theorems -> status.  `seeded/LOG.jsonl`: mutation log.
* `AXIOMS.md`, `COVERAGE.md`: made by `tools/audit.py`.

## Conventions of the model

* `Res α` is the outcome of a C++ call: `ok a`, `throw` (a C++ exception, `CNINE_ASSRT` always
  throws in this code base), or `ub` (undefined behaviour: out-of-bounds access, division by zero,
  use of an invalidated iterator, dereferencing `end()`).
* `CNINE_CHECK_RANGE`, `CNINE_IN_RANGE`, `CNINE_DIMS_SAME` are compiled out unless
  `CNINE_RANGE_CHECKING` is defined; the model describes the unchecked build.
* `CNINE_UNIMPL()` only prints, so execution continues after it.
* `int`/`size_t` are unbounded `Int`/`Nat` unless the property is about overflow (stated there).
  Hence every theorem assumes that sizes and offsets fit the machine types.
* Element types: floats are replaced by an arbitrary commutative (semi)ring, i.e. exact arithmetic.
* Memory is a function from cell numbers to values; a view is (offset, dims, strides).
* GPU branches (`dev>0`), printing, profiling and Python bindings are not modelled.
* Where the real code violates the property we prove the negation on a concrete witness
  (`..._fails`, `not_...`) and keep the provable part under a name ending in `_partial`.

## Trusted base

* Lean 4.33.0 kernel; axioms `propext`, `Classical.choice`, `Quot.sound` only.  `AXIOMS.md` lists for each theorem which of them
  it depends on.  No `sorry`, no added axioms, no `native_decide`, no `bv_decide`.
* `COVERAGE.md` lists the source lines that are modelled and the files that are not; both lists are made by `tools/audit.py`.
* The hand translation from C++ to Lean (cited line by line) and the simplifications listed above
  and beside each definition.
* The C++ standard library contracts used: `std::map`/`set` are ordered finite maps/sets,
  `std::list` iterators stay valid under insertion, `unordered_map::erase` invalidates the
  erased iterator, `std::copy` copies forward, `min_element` returns the first minimum,
  condition variables wake only waiters already asleep.

## Plan per property

* **C01 Linear index and multi-index are inverse**: decode/encode as digit loops over reversed dims (`Model/Index`); mutual inverses by induction. Zero dims give `ub` (mod 0).
* **C02 Index enumeration visits every cell once in row-major order**: list of callback arguments as computed by the division loop; proved equal to the lexicographic Cartesian product; rank 0 negation.
* **C03 Row-major strides address a dense block one cell per index**: stride constructor loop; offset = linear index; permutation of `range`.
* **C04 Leading-index offset overload agrees with the plain one**: literal model of the shadowed loop; negation; partial for i=1.
* **C05 Reported memory size bounds every cell**: `memsize` loop; bound under nestedness by induction; negation on witness.
* **C06 Stride ordering is a sorting permutation**: selection loop with sentinel; permutation+sortedness by invariant; negation for zero stride.
* **C07 Contiguity test is sound**: literal greedy test; soundness by invariant on extracted chain; negation with zero stride.
* **C08 Fused stride covers the same cells**: literal `fuser`; permutation of offsets.
* **C09 Axis list editing laws**: list functions; equational laws.
* **C10 Axis sets: coverage and disjointness**: sets as Finset/List; exactness and negations.
* **C11 Reshape keeps the row-major sequence**: reshape as in code with asserts; row-major reading equal.
* **C12 Axis permutations relabel cells**: views with permuted dims/strides; offset equality.
* **C13 Sub-views address the right cells**: one offset lemma per sub-view constructor plus range transport.
* **C14 Split and fuse are inverse relabellings**: offset algebra; negation for fuse01.
* **C15 Scrunching keeps the cells**: greedy merge loop; permutation of offset (pair) lists by induction over sorted axes.
* **C16 Assignment copies every element and nothing else**: memory update semantics of the three paths; frame + value theorem.
* **C17 Addition updates every element once**: same for additive update.
* **C18 Tensor equality compares all elements**: literal; partial for regular; negation.
* **C19 Reductions see each element once**: fold over cells; uses C07; negation on broadcast view.
* **C20 Element visitor visits each cell once**: nested loops equal enumeration; rank 0 negation.
* **C21 Matrix-vector products**: double loop; sum spec; negation for the transposed version.
* **C22 Tensor product is the Kronecker product**: block loop; Kronecker spec.
* **C23 Einsum string analysis partitions index positions (one operand)**: string scanner with '_' marking; partition theorem.
* **C24 One-operand einsum computes the indexed sum**: loops with the actual stride array (including the wrong one); sum spec for <=3 transfers; negation for 4.
* **C25 One-operand einsum backward is the adjoint**: bilinear-form identity over sums.
* **C26 Einsum string analysis partitions index positions (two operands)**: as C23 for two operands.
* **C27 Two-operand einsum computes the indexed sum of products**: as C24.
* **C28 Two-operand einsum backward passes are adjoint**: bilinear-form identity.
* **C29 Convolution letters**: loop limits characterised by linear arithmetic.
* **C30 Live blocks never overlap and stay in the arena**: block list state machine; invariant by induction over histories; sentinel/erase UB are explicit.
* **C31 Free space stays coalesced and complete**: same invariant plus coalescing.
* **C32 Allocation succeeds exactly when a large enough hole exists**: first-fit search characterised.
* **C33 Freeing is always well defined**: strict reading gives `ub`; negation.
* **C34 Degenerate requests get their own block**: case analysis of truncated division.
* **C35 Rounding up**: `Int.tdiv` arithmetic.
* **C36 Array pool behaves as a list of lists**: arr/dir/tail state refined to list of lists, history induction.
* **C37 Array pool concatenation and flattening**: functions on the same state.
* **C38 Headed lists behave as (head, list) pairs**: same with head cell; negation for sets.
* **C39 Integer pool append**: literal layout; negation.
* **C40 Auto-growing array keeps its contents**: history refinement; negation for copy.
* **C41 Gather map construction keeps every edge**: edge multiset of the constructed pool.
* **C42 Inverse gather map reverses every edge**: ordered map construction; edge permutation; staleness witness.
* **C43 Sorting keeps edges**: bucket sort by length; permutation and sortedness.
* **C44 Gathering rows sums the sources; the inverse map gives the adjoint**: sum over edges; adjoint identity; double counting witness.
* **C45 Weighted gather map keeps weights**: entry pairs; negation for sort.
* **C46 Gather map pack offsets**: prefix sums; negation for single-map constructor.
* **C47 Sparse matrix is a finite map**: ordered-map refinement.
* **C48 Sparse matrix equality**: literal one-sided comparison; negation.
* **C49 CSR conversion keeps the entries**: entry enumeration.
* **C50 CSR element lookup**: literal scan over 2*len pairs with memory bounds; negation.
* **C51 CSR transpose**: counting placement; entry permutation.
* **C52 Thread group concurrency limit**: interleaving transition system of the waiter, workers and counter; invariant.
* **C53 Thread group makes progress**: reachable deadlock witness in the same system.
* **C54 Multi-threaded loop runs each index once**: permutation of executed indices for any schedule.
* **C55 Cell visitor gives each callback its own cells**: two-thread transition system; witness of a wrong view; sequential correctness.
* **C56 Bidirectional map stays a bijection**: two ordered maps; invariant under guarded histories; negations.
* **C57 Object banks create each object once**: memo table; at-most-once by history induction.
* **C58 Observer links are symmetric**: two-way link sets; invariant by history induction.
* **C59 Indexed map keeps order and lookup consistent**: vector + map; invariant.
* **C60 Map of maps is a finite partial function on pairs**: nested ordered maps refined to partial functions on pairs.
* **C61 Prime table**: trial division loop; equals filter of primes.
* **C62 Factorial table**: memo vector; invariant; 32-bit wrap witness.
* **C63 Factored rationals multiply and divide exactly**: exponent maps; value in Rat.
* **C64 Cyclic group arithmetic**: Int.tmod model; congruence; negation of range.
* **C65 3x3 determinant**: ring identity.
* **C66 Permutation objects form a group**: functions on Fin-like lists; group laws; negation for *=.
* **C67 Permutation from ordering sorts**: insertion/selection model of the comparator sort; permutation + sorted.
* **C68 Combinations enumeration**: recursive enumeration equals sublists of length k.
* **C69 Prefix tree stores exactly the prefixes**: inductive tree; contains iff prefix.
* **C70 Sparse graph stays symmetric**: row map; symmetric invariant.
* **C71 Packing a graph stays in bounds**: buffer bound; negation for loops.
* **C72 Greedy spanning tree**: recursive DFS with visited marks; tree/reachability theorem.
* **C73 Unique sorted rows**: ordered set of rows.
* **C74 Batch and grid reconciliation**: literal case analysis; iff; negations.
* **C75 Tensor specification round trip**: list split/join.
* **C76 Configuration text: integers and vectors read back**: string functions over character lists.
* **C77 In-place complex multiplication through split storage**: ring computation; negation.
* **C78–C86**: further view constructors, visitors, memory-manager and matrix operations; see the statements in `properties.jsonl` and the notes in `MANIFEST.json`.
* **C87 Re-addressing between layouts**: division loop over source strides; induction on axes; negations for unsorted and zero strides.
* **C88 Grading a gather map**: literal bucket loop; negation for all maps (moved edges become (0,0)).
* **C89–C96**: further operations of sparse and CSR matrices; see the notes below.

## Notes on the containers (C36–C40)

* A heap block is `Arr α := List (Option α)`; `none` is a cell never written; reading it as a value is `ub`,
  `std::copy` copies the state.  Only host memory is modelled: no device copies, no `view` pools, no moves.
* The directory of an `array_pool` is an `n × 2` `IntTensor` with its own capacity.
* `hlists` is the pool with the head stored in the first cell of each row.
* The refinement is the invariant `Pool.Part p n rows`; the specification (`Spec/Pool.lean`) is a list of rows.

## Notes on gather maps (C41–C46, C88)

* A gather map is its `hlists` pool plus row and column counts (`Model/Gather.lean`); the iteration order of
  `unordered_map` is an argument (`ord`), and the theorems hold for every order.
* Reachable maps are described by the inductive `GMap.Made` / `WMap.Made` (constructors, append, invert, sort).
* A weight is stored as the bits of a float; the model keeps the bits as an integer and passes a function from bits
  to ring elements to the gathering loop.
* Gathering (`Model/GatherRows.lean`) is the nested loop over cells of memory; addresses are integers as in the code,
  an address outside of the allocated cells is `ub`.  The rounds of a pack run in order (MultiLoop may run them in
  parallel); the fixed-k maps of a pack are not modelled.

## Notes on sparse matrices (C47–C51, C89–C96)

* `std::map` is `OMap` (`Model/OMap.lean`): a list of pairs with insertion by key; sortedness is an invariant.
* The rows of a `SparseRmatrix` are pointers, each owned by one matrix; the model holds them by value.
* Histories are lists of `set` and `row` calls whose exceptions the client catches.
* A cell of a CSR array is either an `int` or a `TYPE` (`CCell`); reading one as the other goes through the abstract
  conversions `Pun`, so theorems hold whatever the bit patterns are; the witness for `push_back` uses the pattern of 1.0f.
* `float` is an arbitrary type with zero and decidable equality (no NaN).

## Notes on threads (C52–C55, C97–C99)

* `TGroup.Act` has one case per atomic action of a thread; a schedule is any sequence of them, plus spurious wake-ups.
  Memory is sequentially consistent.  `notify_one` wakes a thread that already sleeps, otherwise it does nothing.
* The body of a task is one atomic action on the shared memory; races inside a body are outside of the model
  (C55 models the one in `for_each_cell_multi` separately, pointer by pointer).
* `MultiLoopRuns` relates the memory before and after; a schedule that hangs (C53) has no final memory.

## Notes on maps (C56, C59, C60, C100–C105)

* `std::unordered_map` is `UMap` (`Model/UMap.lean`): a list of pairs without repeated keys.  Its order stands for the
  iteration order; theorems about contents do not depend on it.  C102 uses the order of insertion as one possible order.
* `bidirectional_map::insert` erases through an iterator that `erase_backward` may have invalidated: `ub`.
* Objects owned by `indexed_mapB` live in an explicit heap `OHeap`; deleting a dead object is `ub`.
* Not modelled because it does not compile when instantiated: `map_of_maps::as_int_pool`, `is_empty`,
  `double_indexed_map::make_cmap`, `for_each_in_columns`.

## Notes on observers and banks (C57, C58, C106–C108)

* Observers and targets live at addresses; an address of a destroyed object may be used again.  A legal client creates objects at
  free addresses and uses live ones.  Iteration order of `std::set` is the order of insertion in the model.
* A bank is modelled with its own list of observed keys; by C58 the death of a key runs the deletion action exactly if the key is in
  that list.  The specification of all banks is one finite map (`BSpec`).
* Makers may keep state and throw (`mk n k`); makers that use the same bank, and deletion actions that destroy further keys, are not
  modelled.
* `parametric_observer`, `dbl_indexed_object_bank` and the default constructor of `ptr_arg_indexed_object_bank` do not compile.

## Notes on arithmetic helpers (C61–C65, C109–C111)

* `int` values are `Int`; only the products of `Factorial` are checked against 32 bits.  A `while` loop gets `natAbs + 1` steps of
  fuel; running out is `ub` (the loop does not end).
* `Frat` is the `std::map` from primes to exponents; its value is a rational number of Mathlib.  The shared `PrimeTable` is explicit
  state.
* A negative query of `Factorial` (reads before the vector) is not modelled.
* `Determinant` is over any commutative ring (exact arithmetic instead of `float`).

## Notes on combinatorial objects (C66–C69, C112–C119)

* A permutation object is its array, entries `none` as long as they are unwritten; reading one is `ub`.  Moved-from permutations are not
  modelled.
* `Combinations`: the member `N` is read without being initialised, which is formally undefined; it is modelled as an arbitrary number
  `g`, so the theorems hold for whatever the memory holds.  The two-level map of the bank is one map keyed by pairs.  `m ≤ 0` is not
  modelled.
* `PrefixTree`: the order of the children in a node stands for the iteration order of the unordered map; new keys come last.
  `contains_some_permutation_of` and `indexed_depth_first_traversal` do not compile when used.

## Notes on graphs (C70–C72, C120–C124)

* `SGraph` is the vertex count and the map of maps of weights; vertex labels and the `degree`/label caches are not modelled, keys are
  `int`.  `is_neighbor` does not compile when used.
* `data[i]` inserts an absent row.  This is modelled where a later result can depend on it (`row`, `nneighbors`, equality).
* `greedy_spanning_tree` recurses with fuel `n + 1`; C72 shows it is never exhausted for graphs in range.

## Notes on labelled trees and planted subgraphs (C125–C129)

* A labelled forest is the same inductive type as a prefix tree; pointers and ownership (`delete`) are not modelled.  `std::set` is a
  list without repetitions.
* `FindPlantedSubgraphs` is modelled for graphs without labels and degrees.  The half-built forest `matches`, which the duplicate test
  reads, is passed to `makeSubtree` as the function that puts the current node in its place.
* `FindPlantedSubgraphs2` (iterative search on packed graphs) is not modelled.

## Notes on vector and matrix views (C130–C142)

* `RV1`, `RV2` are `Rtensor1_view`, `Rtensor2_view` with natural strides over one memory; `float` is any (semi)ring.  Only the CPU
  branches are modelled.  The `GindexSet` constructors are not.
* Loops `while(a<n0) a*=2` and `for(;a>0;a/=2)` run on fuel `n0`; the lemmas show it suffices.
* `tensor2_view` does not compile when included; of `tensor1_view` only `add` and what `SortRowsUnique` needs are modelled.
* Specification: `Has` (what a view shows) and `Becomes` (what it shows afterwards, nothing else changed).

## Notes on unique rows and the split complex reference (C73, C77, C143)

* `SortRowsUnique`: `std::set` is its ordered list; insertion walks the list with the two comparisons a tree insertion decides by, the
  result does not depend on the tree's shape.  The result tensor is a zeroed block at an address above the argument's cells.
* `pretend_complex` over the reals, specified by Mathlib's `ℂ`; division is passed in as a parameter, as `std::complex` does it.

## Notes on batched gridded tensors (C74, C144–C152)

* `BG` is a view and the number of grid axes.  Loops over batches run in order (one thread); with several threads and a grid see C55.
* Specification: `Has`/`Becomes` by batch, grid and cell index; `rep` repeats the contents along missing axes.
* `1/c` is passed in as `inv`.  Matrix products are for `float`: for `double`, `view2()` reinterprets the memory as `float`
  (tensors/TensorView.hpp:785-786).  The product into a target without batch or grid (accumulation over it) is not modelled.
* Two tensors without cells: C148.  The vector constructor and `operator=` of `BGtensor` do not compile when used.

## Notes on specifications, constructors and stacking (C75, C153–C156)

* `Labels` and `LSpec` are `DimLabels` and the fields of `LtensorSpec`; a specification is a value, the builder chain a function.
* A new tensor is a row-major block at an address `q` given to the constructor; uninitialised cells hold an arbitrary function `junk`,
  the normal distribution an arbitrary sequence.  The device is 0.
* `stack` is specified on shapes `A ++ n :: B` with a common `A` and `B`; operands must not lie in the new block.

## Notes on labelled tensors (C159–C166)

* `LT` is a view and labels.  `split(d,a)`, `transp(a,b)`, `row`, `rows` and `broadcast(d,n)` repeat the code of `TensorView` and are not
  modelled twice (C12–C14).  The methods of C165, C166 return tensors with default labels, so they are functions of views.
* `Steps D S t`: the strides `S` of axes `D` are the row-major ones times `t`.
* A batch size of the constructors is a natural number; `mult` is for `float` (a semiring), the matrix must be outside the new block.

## Notes on the configuration object (C76, C157, C158)

* Strings are lists of characters, `npos` is `none`.  A configuration object is a text or a flat dictionary of texts; why objects
  cannot nest is said in `Model/Json.lean`.  The iteration order of `std::map` is any list order.
* `>>` into an `int` is modelled as white space, sign, digits, clamping; an exhausted stream leaves the variable uninitialised, and its
  use is undefined behaviour.  Positions above `INT_MAX` stored in `int s` are undefined in the model.
* Searches run on fuel; running out is `ub`.  Theorems that give `ok` show the fuel suffices, C158 shows it never does.

## Notes on convolutions (C167–C174)

* `SV` is a view with integer base and strides (the backward passes run through the filter backwards); an access at a negative or
  unallocated address is undefined behaviour.
* Specification: one relation `i + j - pad = p` between output, filter and input positions; `fwd`, `bwdX`, `bwdW` are the three sums over
  it.  `Lemmas/Adds.lean` has an algebra of programs that only add to memory, so that loops become sums.
* The rounds of the batched filter gradient all add to the same `w` from several threads; the model runs them one at a time.

## Notes on convolutions of float views (C175–C186, C209)

* `Model/RConv.lean` has the CPU branches of `RtensorConvolve2d`, `RtensorConvolve3d`, `RtensorConvolve3d_back0`,
  `RtensorConvolve2dSparse` and `RtensorConvolve3dSparse`; `float` is any semiring.  `Rtensor2_view::add_mprod` does nothing for
  layouts it does not know (`CNINE_UNIMPL` prints).
* A sparse filter is the list of triples `CSRmatrix::for_each` passes on; C186 takes it from a modelled CSR matrix.
* C209 is about the assertions only: each is fed two sizes that differ, for every rank.
* `acc_axis` and `acc_win` turn loops over axes and windows into sums; `fil2`, `fil3` are the filters a list of entries stands for.

## Notes on gathering slices (C187–C191)

* `Model/Slices.lean` has `TensorView::co_scrunch_except` and both versions of `GatherSlices` on the CPU.  `put a t ix` and `cut a ix`
  put an index into place `a` and take it out; `gathered es f a b` is the sum over the listed (target, source) pairs.
* C188 collects what the code gets wrong: the last axis is refused, the plain version compares no sizes, the fast one is wrong for
  slices whose cells are not adjacent or that keep three axes, and does nothing for more.

## Notes on tensor programs (C192–C195)

* `Model/TProgram.lean` has `TensorProgram` with the operation as a parameter; the theorems are for `GatherRows` with `GatherMapB`
  (no fixed-k or weighted parts, `*_columns_n = 1`, which nothing in the repository changes) and matrices as variables.
* Values live on places (variable, row, column); an instruction is a list of additions place ← place, all reading old values, which
  agrees with the code when an instruction's two variables differ.  The transpose is proved on these lists.
* Tensor objects are counted: `Heap` records every `new`, C195 what is never deleted.  Copying a gather map is taken to be the
  identity.  `fuse0` and `TensorProgramPack` do not compile or are empty, and are left out.

## Notes on functions that return new tensors (C196–C208)

* `Model/TFunctions.lean` has tensors/TensorView_functions.hpp and the operations of TensorView_gen_ops.inc that return a tensor.  The
  address `q` of the new tensor is a parameter; `Outside q n x` says that the operand has no cell in the new block.
* `double` matrices are modelled on halves of a `double`, since `view2_of` takes their memory for `float`s; the theorem for
  them says what the two halves of a 1×1 product are.
* Left out: `to_array_pool(const Tensor&)` (there is no class `Tensor`), the `einsum` functions (C24–C27 are about what they call),
  `conj()` and `herm()`.

## Notes on column spaces and connected components (C210–C216)

* `Model/Spaces.lean` follows `ColumnSpace`, `ComplementSpace`, `IntersectionSpace` and `SymmEigenspace` on memory.  Arithmetic is exact:
  theorems are over an ordered field in which every number not negative has a square root (`Root`); the examples use the reals.
  Rounding is not modelled, so nothing is said about loss of orthogonality in `float`.
* `off` is what the inner loop makes of a column; `Inv` is the invariant over the columns; `step_ok` and `takeOff_ok` connect both to the
  memory.  `ortho_le` uses the rank of a matrix from Mathlib.
* `ComplementSpace` and those built on it stop at the assignment to a default-constructed tensor; what follows is not modelled.
* `ConnectedComponents` is modelled for nodes that are numbers; recursion depth is not limited.  `BlockDiagonalize` itself is left out: it
  uses `Tensor`, which is defined nowhere.

## Notes on operations on slices (C217–C223)

* `Model/SliceOps.lean` has the CPU branches of `ScaleSomeSlicesFn` and `GivensSomeSlicesFn`; `float` is any commutative ring.
* `columns_ok` and `stages_ok` turn one operation on all columns, and a list of operations, into `after`, a function on contents;
  the theorems about matrices, inner products and undoing are then algebra.

## Notes on the einsum functors of float views (C224–C233)

* `Model/EinsumFn.lean` has `RtensorEinsumFn`, `EinsumFnBase` and `CtensorEinsumFn`.  One `nest` stands for the loop nests written out
  for every number of letters; the largest number with a nest is a parameter, and larger numbers return without effect as in the code.
* A complex cell stands for the pair `arr[i]`, `arrc[i]`; the theorems are over a commutative star ring, examples over Gaussian integers.
* `analyse_named` gives the exact groups for every string; `runFn_spec` the exact result of the loops, including letters that only the
  second operand has (read at index zero).  `Right` says that the numbers used for summed letters are those of the operands; it always
  holds for complex views, and for real ones only when the result happens to have the same sizes and strides.

## Notes on float views with three axes (C234–C242)

* `Model/RView3.lean` has the CPU branches of `Rtensor3_view`; positions are natural numbers, so negative strides are left out.
* `flat01` and `flat12` carry the matrix theorems (C133–C141) over to regular views with three axes; `loop_regions` and `loop3_cells`
  are for the loops over slices and over all cells.
* `sumN_into` and `avgN_into` share one definition with the division as a parameter.

## Notes on the newer einsum strings and contraction trees (C243–C252)

`Model/CTree.lean` follows `EinsumForm`, `ix_tuple`, `ContractionNode`, `ContractionTree` and `ContractionTrees`. Tokens are lists of
characters and the maps keyed by strings are ordered lists. A `set<shared_ptr<…>>` is ordered by address; where a new node is inserted
is given by an arbitrary function of the path of contractions (`place`), so the theorems hold for every layout of memory. `std::set<int>`
is a `Finset`. The strings printed by `str` and `latex` are not modelled, only the assertion that there is a root.

`Words` and `Split` are the independent description of a string; `Good` collects what the form must be. Trees are handled with a ghost
list of all nodes made (`Inv`): a node is open exactly if none of its indices has been contracted, the children of the contraction of
`c` are the nodes first taken up by `c`, and levels grow along every index. Hence the levels decide which contraction takes up a node
(`taken_iff`), which is why trees with the same levels are the same (C250). The value theorem (C246) keeps the sum over the contracted
indices as an invariant of the product of open nodes (`ValInv`).

## Notes on complex views (C253–C271)

* `Model/CView.lean` has the CPU branches of `Ctensor1_view` to `Ctensor4_view` and two of the loops of `BasicCtensorProducts.hpp`.
  Real and imaginary parts are cells of one memory, reached from `arr` and `arrc` with common strides; positions are natural numbers,
  except for `flip`, which is modelled on integers (`CV3Z`).  `complex<float>` is a pair over any ring (`Cx`); C256 also states the
  products over the complex numbers of Mathlib.  The special treatment of infinities in complex multiplication is not modelled.
* `Has`, `Sep`, `Cov` and `Match` in `Spec/CView.lean` are the whole vocabulary: entries, no two entries in one cell, the cells of a
  view, and which overlaps of argument and result are allowed.
* `CVk.run` turns a loop that stores one entry per round into new contents; the lemmas in `Lemmas/CViewFuse.lean` move all four notions
  between a view and its fused view.
* Left out: GPU branches, `add_gather`, conversions to `gtensor` and strings, and `split0`-like functions of views with more axes.

## Notes on block sparse matrices (C272–C281)

* `Model/BlockSparse.lean` has `double_indexed_map` (two maps of maps, kept as transposes of each other by `set`) and
  `BlockCsparseMatrix` on the CPU.  A mask is the list of pairs its `for_each` gives.  New tensors are placed where an oracle `q` says.
* `Spec/BlockSparse.lean` says which setting wins (`lastSet`), which block belongs to a pair (`LastPlace`) and what matrix the blocks
  stand for (`dense`); the products are stated against `dense`.
* The product of two block matrices reads members that were never set.  The model makes this undefined (C281 fails) and proves
  the rest for the values a caller would expect there.
* Left out: the CUDA branch, templates that do not compile when used (`make_cmap`, `is_empty`, the constructor from `map_of_maps`,
  `for_each_in_columns`), the cached `GatherMapB` objects, and copies, whose cached functions refer to the original.

## Notes on weighted masks and aggregation (C282–C290)

* `Model/Rmask.lean` has `Rmask1` with its cached inverse and the three constructors of `Aggregator` for complex views.  Indices are
  integers, so a negative row is undefined behaviour and not a silent wrap.
* `Spec/Rmask.lean` starts from the list of pushes: the row lists, the weights of a pair, and the matrix entry (their sum).
* `aggregate2_run` is the only place where memory is involved; the versions with more axes and with the inverse follow from it.
* Left out: `prepare` (in `Model/GpuC.lean`), the inverse of an inverse, the leak of the inverse, `CtensorView` and `CtensorD_view`.

## Notes on tensors with two sparse axes (C291–C296)

* `Model/SparseTV.lean` has `SparseTensorView` with `SparseIndexer2`.  The list of pairs is read from a view of integers.
* `Spec/SparseTV.lean` says where an entry belongs without strides: the row-major position (`position`) in the dense sizes with the
  number of blocks inserted.  `dot_place` compares the strides of `split_strides` with it.
* C++ overriding is part of the model: `for_each` with three integers is not const in the base class, so the call through the base
  pointer reaches the base class (`forEach2`, C294).
* Left out: other `fcode`s, copies and strings.

## Notes on triangle coefficients (C297–C298)

* `Model/Delta.lean` has `DeltaFactor` with the bank of objects, over the factorials and fractions of `Model/Math.lean`.
* A negative argument of the factorial reads outside its vector and is `ub`.
* Left out: the square root (a `double`) and the deletion of the objects.

## Notes on tensors that own an array (C299–C319)

* `Model/Gtensor.lean` has `Gtensor` on the CPU.  The array is a list.  Cells of `new TYPE[n]` have any values: every function that allocates
  takes them as a parameter `junk`, and theorems hold for all of them.
* `Spec/Gtensor.lean` has two predicates: `Is x D f` (the list is `f` along `allIndices D`) and `IsArr x A D p f` (arrays of tensors, each
  padded to `p` cells).  All theorems speak of these functions `f`.
* `fill_*` and `two_*` in `Lemmas/Gtensor.lean` turn the two kinds of loops (over cells, over pairs of strides) into statements on `f`.
* Left out: GPU branches, files, random fills, `delete` used for `new[]`, conversions to other tensor classes.

## Notes on shared arrays (C320–C328)

* `Model/Mem.lean` has `MemArr` and `MemBlob` on the CPU as a machine that runs programs (`Cmd`): heap, counters of `shared_ptr`, objects.
  Counters are not shared between threads.  `Spec/Mem.lean` has the same programs on memory that is never freed.
* The theorems are a refinement: `Inv s g e` in `Lemmas/Mem.lean` relates both machines, with `e` the references held during a command.
* The managers are pointers; what `malloc` and `free` of a manager do is not modelled here.  Left out: GPU branches.

## Notes on containers that own objects (C329–C336)

* `Model/Owners.lean` has `associative_container` (the owning variant with `new` and `delete`), `cachedf`, `cachedF`, the object packs and the
  maps with two to five keys.  Containers and wrappers are machines that run programs (`Cmd`) on a heap of objects; `delete` of an object that
  is not live, and reading one, are `ub`.
* `Spec/Owners.lean` has the same programs on containers that hold values.  `Own heap l` in `Lemmas/Owners.lean` says that the live
  objects are those of the list `l`, each once; it is the invariant of both machines.
* `std::unordered_map` is a list of entries searched by hash and equality; the order of its entries is not modelled.
* Left out: moving assignment and printing; deletion of objects by `shared_ptr` (objects of shared packs stay in memory in the model).

## Notes on views with many axes and accessors (C337–C361)

* `Model/HighViews.lean` has one definition for the views with four, five, six and seven real axes (`HV`), five and six complex axes (`CHV`) and the views
  of any rank (`RtensorView`, `CtensorView`, `CtensorD_view`): sizes and strides are lists.  The classes differ only where the comments say so (for example
  the checks of the constructors, the sixes in `Rtensor7_view`).  Recursions of the code (each class fuses axes and calls the class below) are
  recursions on the number of extra axes, down to `Rtensor3_view` (C240, C241).
* `Spec/HighViews.lean` says where entries lie (`at'`), what memory holds (`Has`) and what a reduction should leave (`Summed`).  `unfuse` maps indices of
  a fused view to indices of the view.
* `Fixed`- and `TensorAccessor`: strides are converted to 32-bit `int`; sums outside 32 bits are `ub`.  `FixedTensorAccessor` is modelled without that bound.
* Left out: GPU branches, strings, `batched_cmvprod` inside the called function, `CtensorView` conversions to other classes.

## Notes on tensors of the old backend (C362–C384)

* `Model/RtensorA.lean` has `RtensorA` on the CPU.  Memory is one `Buf`; `new float[n]` makes `n` cells with any contents at an address given as a parameter.
  Theorems ask that this memory is free (`Free`).
* `Spec/RtensorA.lean` says what a tensor holds: `Is x D f m` (compact row-major, entry `ix` is `f ix`), `Becomes` (the entries change, nothing else does) and
  `Fresh` (a new tensor in free memory).  All theorems on operations speak of these functions `f`.
* The loops of the code run over blocks of cells; `put_core`, `take_core`, `pair_core`, `cols_core` and `blocks_core` turn them into statements on indices.
* Left out: GPU branches, random fills, files, conversions to other classes; releasing of arrays is in the next section.  `sqrt` and `pow(n,-2)` are parameters.

## Notes on the arrays of old tensors (C385–C388)

* `Model/RtensorAMem.lean` is a machine with memory blocks that are allocated and released and with tensors in variables.  Programs are lists of commands: the
  constructors, assignments, `reserve0`, `push_back_slice0`, `reshape`, writes and destructors of `RtensorA` on the CPU.  A released block is not used again.
* `Spec/RtensorAMem.lean` runs the same programs on plain values (`vstep`) and says when objects and blocks belong together (`Sound`) and when an object has a value
  (`Matches`).  `ub` of `vstep` marks what is not claimed: views, reshaping, reading a moved-from tensor, assignment to itself, growing with empty slices.
* C385 holds for all programs, with views and reshaping.  C386 and C387 refine to values.  C388 lists what fails outside of that.

## Notes on doubling, halving and symmetric indices (C389–C395)

* `Model/Doubling.lean` has `Broadcaster.hpp` and `Reducer.hpp`.  They call the GPU; only the effect of the calls on one memory is modelled.  Copies need ranges that
  do not overlap, sums need ranges that are the same or do not overlap; anything else is `ub`.  Addition is exact.  Calls do not fail and run one after another.
* `Spec/Doubling.lean` says what arrays of blocks hold.  The doubling and halving loops are followed by the invariants `Half`, `HalfZ` and `Sums`.
* The same file has `GindexSymm` and `GindexFuser`.  Left out: their printing.

## Notes on packs of tensors and gradients (C396–C402)

* `Model/BGPack.lean` has `BGtensorPack` and `diff_class`.  Memory is the list of arrays made so far, an array is its sizes and one value; operations on the entries of
  a tensor are operations on that value.  `std::map` is a list in the order of the keys, `find` and `emplace` as in the library.
* `Spec/BGPack.lean` says what a pack holds under a key (`Holds`) and which arrays it uses (`Uses`).
* Left out: GPU moves, printing, gradients of packs of packs, `operator[]` that makes null pointers stay in the argument of `zip`.

## Notes on kernels of the GPU (C403–C433)

* `Model/Gpu.lean` has kernels as programs of reads and writes of single cells.  A launch runs the threads of all its blocks interleaved in any order, one
  access at a time (`Out` relates launches, a memory and an outcome).  Launches of a stream run one after another.  A launch with numbers of blocks or threads outside
  the limits of the hardware (threads at most 1024 and 64 along z, blocks at most 2147483647, 65535, 65535, none of them zero) does nothing, as the code does not
  look at the error.
* `Ends ls m Q` (`Spec/Gpu.lean`): there is an outcome, and every outcome is a memory with `Q`.  The main theorem is C403: threads with cells of their own.
* `Model/GpuR.lean` has cuda/RtensorUtils.cu, cuda/RtensorReduce.cu and cuda/CUDAhelpers.hpp.  `Covers` (`Lemmas/GpuR.lean`) says that the threads of a launch stand
  for the entries, one each.
* `Model/GpuT.lean` has cuda/TensorView_add.cu, cuda/TensorView_assign.cu and cuda/TensorView_inc.cu for one, two and three axes; for more axes the code only prints.
  cuda/TensorView_gather.cu calls `split`, which `TensorView` does not have, and is skipped.
* `Model/GpuConv.lean` has cuda/RtensorConvolve2d.cu, cuda/RtensorConvolve3d.cu and cuda/RtensorConvolve3dSparse.cu with the functions that call them.  The sums of
  the specification are over all filter and input positions with output plus filter equal to input plus padding (`slide`).  cuda/RtensorConvolve2dSparse.cu is
  not called and is left out.
* `Model/GpuEin.lean` has all of cuda/RtensorEinsumProducts.cu (C442–C446).  A `Ptr` is a pointer with the strides that are passed along with it.
* Left out: 32-bit overflow of offsets, negative strides, weak memory (a thread's accesses happen in order), synchronization with the host, errors of CUDA
  other than the limits of launches, memory transfers.  Indices and tables read by kernels lie in another memory that no kernel writes.

## Notes on tensors of the host and of the GPU (C447–C453)

* `Model/Devices.lean` has two memories, `assign` of tensors/functions/TensorView_assign.hpp for all pairs of devices, and the constructors, copies and moves of
  `TensorView` between devices.  The kernels enter as a function `kern` that picks any outcome of the launches of cuda/TensorView_assign.cu (`Picks`);
  `picks_exists` shows that there is one.
* Assignment from the host to the GPU calls itself through a constructor.  Calls get a bound on their depth, and exceeding it is `ub`; C449 and C453 say that it is exceeded whatever it is.
* Left out: several GPUs, releasing blocks, failing allocations.

## Notes on the memory of array pools and integer tensors (C434–C441)

* `Model/PoolMem.lean` is a machine for programs on `array_pool`: blocks on the host and on the GPU, a released block is `none`, a cell never written is `none`, and
  reading or releasing either wrongly is `ub`.  `Model/IntMem.lean` is the same for `IntTensor` with two axes and rows of at least one entry.
* The references `Spec/PoolMem.lean` and `Spec/IntMem.lean` have lists and no memory.  Their `ub` marks what is not promised; C436 and C440 show by programs
  that the code does go wrong there.
* The invariant says for each variable which list it stands for, and that the blocks in use are exactly the blocks that variables own, each once.  `Lemmas/TwoHeaps.lean` has
  this for any kind of object; blocks taken out of a variable are carried as a list of loose blocks until they are released or given to another variable.
* Left out: the values of `sizeof`, failing allocations, kernels that write to the arrays, pools made from other classes.

## Notes on operations that call cuBLAS (C454–C475, C509–C514)

* `Model/Cublas.lean` has the GPU branches of matrix products, sums, reductions and scalings that call cuBLAS.  The library itself is not in the repository; `sgemm`,
  `cgemm`, `saxpy`, `sasum` and `sdgmm` follow its published contract and belong to the trusted base.
* `Model/CublasA.lean` has the GPU branches of the old backend (`RtensorA`) that call cuBLAS: sums, scaling, dot products, transposes and matrix products.
  `cublasDot` and `sgeam` follow the published contract of the routines; everything else of the GPU branches of that class is not modelled.
* `Model/CublasC.lean` has the same for complex tensors (`CtensorA`), whose products are four real products each.
* The contract: matrices by columns, a leading dimension that is too small is an error (`throw`, because `CUBLAS_SAFE` ends the program), results that share cells with
  other entries of the result or with a factor are `ub`.  The theorems show that the calls meet the contract.
* Left out: rounding, the order of sums (the arithmetic is a commutative semiring or ring), streams, several handles.

## Notes on complex tensors of the old backend (C476–C489, C504, C505, C508)

* `Model/CtensorA.lean` has the CPU branches of `CtensorA`: two arrays, of real and of imaginary parts, in one block.  Each part is an `RtensorA` of `Model/RtensorA.lean`,
  and functions that walk one array after the other reuse its loops.
* `Spec/CtensorA.lean` says what it means that a tensor stands for a function from indices to complex numbers: the two arrays do not share cells.
* Functions with one loop over both arrays are compared with two loops by `Lemmas/Weave.lean`, or run directly by `CA.run`.
* `Model/CtensorACols.lean` has the functions of columns; the square root and the inverse square are parameters.
* Left out: the GPU branches that do not call cuBLAS, constructors from `Gtensor` and arrays, printing.

## Notes on maps over cells (C490–C503)

* `Model/CellMaps.lean` has the maps of `legacy/tensor_array/cell_maps` and `include/Cmaps.hpp`, which apply an operation to cells of arrays of tensors, with the masks of
  `CellMask2r.hpp` and the kernels of `cuda/CtensorA_plus.cu` and `cuda/CtensorA_add_plus.cu`.
* On the CPU a cell is one value of any type and the array is a map from numbers to values; the operation is a parameter that has to meet a contract (`Cop`, `Acc` in
  `Spec/CellMaps.lean`).  What happens inside a cell is the subject of C476–C489.  On the GPU a cell is `asize` floats in each of two arrays.
* The accumulating kernel is proved right for the maps' functions (C500) although the maps do not launch it (C503).
* Left out: operations other than plus, the maps' device code that nothing calls, the table as floats of the accumulator in `TensorView_accumulators.cu`.

## Notes on tensors with batches (C506, C507)

* `Model/Batched.lean` has `dominant_batch` and `for_each_batch_multi` of `tensors/BatchedTensor.hpp`, on top of the thread pool of `Model/Threads.lean`.  The function that is
  called is any function of the numbers of the batch and of the two slices.

## Notes on the class RtensorArrayA (C515–C530)

* `Model/RtensorArrayA.lean` has the arrays of real tensors of the old backend.  The whole array is one `RtensorA`; each tensor is padded to a multiple of 32 numbers.
  The member `k` of an array is an option, because copies and views leave it unset; using it then is `ub`.
* Where the code puts `nbu` before the sizes, the sizes are integers (`Odd`, `OddArr`), and the allocation has the size that the code computes from them.
* `Spec/RtensorArrayA.lean` says what an array holds (`RAA.Is`): entries by an index of the array and an index of the tensor.  The numbers between tensors are allocated, their values are not
  stated.
* Proofs handle one tensor at a time (`cells_core`) or treat the array with its padding as one tensor (`flatT`).
* GPU branches: only `broadcast_copy(x)` (as copies in the memory of the GPU) and `broadcast_add_Mprod_AA`.  Left out: moves between devices, printing.

## Notes on hashes, norms and unitary matrices (C531–C541)

* `Model/TVMore.lean` has `hash<TensorView>`, `norm`, `normalize`, `max_abs`, `unitary_error`, `random_unitary` and the conversions to views of fixed order.
  A hash has 64 bits; `std::hash` of elements is any function.
* `Spec/Unitary.lean` has inner products with a conjugation (`ipc`), which is the identity for real numbers.  C537 holds for any field with `Norms`; real and complex numbers are
  shown to be such fields.  The numbers drawn are any numbers that are linearly independent; that random numbers are so with probability one is not stated.
* Temporaries of `random_unitary` are placed anywhere outside the result.

## Notes on complex products, sums of rows and rectified units on the GPU (C542–C546)

* `Model/GpuC.lean` has the kernels and launchers of `cuda/BasicCtensorProducts.cu`, `cuda/TensorView_accumulators.cu` and `cuda/RtensorPackUtils.cu`, run on the interleaving machine of
  `Model/Gpu.lean`.  Shared memory of the accumulator is kept with the thread, because each slot is used by one thread only.
* Floats that hold integers hold them exactly, which is so below 2^24.
* `Spec/GpuC.lean` has updates of pairs of cells (`Upd2`), the real and the imaginary part.
* `Model/BsmGpu.lean` (C556, C557) has cuda/BlockCsparseMatrix.cu and the functions of matrices/BlockCsparseMatrix.hpp that call it.  The tables of integers are lists.

## Notes on sizes, indices and sets of axes (C547–C555)

* `Model/GdimsMore.lean` has functions of `Gvec`, `Gdims` and `Gindex` that other models do not need.  `int` has no bounds.  `size()-1` of an empty vector is the largest `size_t`,
  so loops up to it are `ub`.

## Notes on the class CtensorArrayA (C558–C567)

* `Model/CtensorArrayA.lean` has two arrays of numbers; code that is that of `RtensorArrayA` twice is modelled by the functions of `Model/RtensorArrayA.lean` on the parts `re` and `im`.
  Loops that deal with both parts in each round are written so, and the proofs take them apart (`Lemmas/Weave.lean`, `ccells_core`).
* `Spec/CtensorArrayA.lean`: the two parts are arrays (`RAA.Is`) with no common cell.
* Left out: a constructor that reads a member before it is set (133-135), functions on graphs, moves between devices, printing, and the GPU branches except that of `conj()`.

## Notes on packs of real tensors (C568–C578)

* `Model/TensorPack.lean` is `legacy/tensor/RtensorPack.hpp` on the CPU.  A pack owns its array and no other pack points into it, so a pack is a value: the array is a list of cells (`none` for a
  cell never written, the null pointer is a case of its own), and the directory a list of rows with the number of rows there is room for.  Reads and writes outside the array are undefined.
* `std::copy` of cells never written copies them; using their numbers (arithmetic, comparison, addresses and sizes) is undefined.
* `Spec/TensorPack.lean`: `Holds p nd L` says that the pack holds the list of tensors `L`.  All properties are about `L`.
* Two calls in which an argument points into the pack have functions of their own: `assignSelf` and `pushOwn`.
* Left out: the GPU, moves between devices, printing.  `add_ReLU` and `add_ReLU_back` are in `Model/GpuC.lean`.

## Notes on interpolation matrices (C579–C585)

* `Model/Interpol.lean` is `legacy/matrix/InterpolBilinear.hpp`, `legacy/matrix/InterpolTrilinear.hpp` and the constructor of `legacy/matrix/SphericalIpMatrix.hpp`, on top of the model of CSR matrices
  (`Model/Sparse.lean`).  Numbers are an ordered field with exact arithmetic; the rounding of `float` is not modelled.  The tensor of points is a function.  The constants and functions of `<cmath>` are
  parameters of the spherical constructor; the properties are stated for the real functions, π and 2/π.
* `Spec/Interpol.lean` says what interpolation means without mentioning corners or weights: columns are read as samples of a row-major grid, weights are positive and near, and functions affine in each variable
  are reproduced.
* What fails: grids with different sides (the strides use the wrong sides), the transpose of trilinear matrices (declared with too few columns), the azimuths of the spherical samples (`M_2_PI` is 2/π).

## Notes on complex tensors of backend B (C586–C598)

* `Model/CtensorB.lean` is `legacy/backendB/CtensorB.hpp`: complex tensors in one array, each real part followed by the imaginary part.  `float` is an arbitrary algebraic structure; an array is a block of
  cells of a memory, and addresses for new arrays are parameters.
* `delete arr` for an array made by `new float[n]` is undefined behaviour.  `assign` and `moveAssign` return `ub` for it.
* `conjG` is the branch for the GPU with the contract of `cublasSscal`.  The other branches for the GPU, moves between devices, printing and the functions that only print "unimplemented" are left out.
* A tensor of ATen is its array, sizes and strides in complex numbers.
* `Spec/CtensorB.lean`: `Is x D F m` says that `x` has the sizes `D` and the entries `F`.  `Becomes` and `Fresh` also say that no other cell changes.

## Notes on scalars (C599–C605)

* `Model/Scalar.lean` is `legacy/scalar/RscalarA.hpp` and `legacy/scalar/CscalarA.hpp`: one number, or a bundle of numbers.  The type of the numbers is a parameter, so both classes share the functions that
  have the same text.  `std::abs`, `std::pow`, `std::exp` and `>0` are parameters; C604 sets them to the functions over ℝ.
* A null array, a cell that was never written, and `std::copy` onto itself are undefined (`ub`).
* `Spec/Scalar.lean`: `Holds x n F` says that `x` is the number `F 0` or the bundle of the numbers `F 0`, …, `F (k-1)`.
* C604 states gradients with `HasDerivAt` of Mathlib: for any number `D` that is the derivative of the forward function, the backward function adds `g·D`.
* False of the code, with theorems ending in `_fails`: self-assignment of bundles, single random complex numbers, functions that do not compare shapes, sums of bundles, the gradients of the complex modulus and
  its square.
* Not modelled: printing, conversions to strings, the division and power of complex numbers (`std::complex` is not modelled beyond sums, products and conjugates).

## Notes on sparse tensors (C606, C607)

* `Model/SparseTensor.lean` is `legacy/tensor/SparseTensor.hpp` on top of the models of `std::unordered_map` and `map_of_maps`.  The order of traversal is left open: theorems say which calls happen, not in which
  order.
* `lastOf` in `Props/SparseTensor.lean` is the specification: the value of the last assignment to an index.
* Not modelled: the access functions of objects that are not `const` (they do not compile when used), printing.

## Notes on arrays of complex tensors of backend B (C608–C614)

* `Model/CtensorArrayB.lean` is `legacy/backendB/CtensorArrayB.hpp` on the CPU, on top of `Model/CtensorB.lean`.
* `Spec/CtensorArrayB.lean`: `Is X A C F m` says that `X` is the array with sizes `A` of tensors with sizes `C`, and that the tensor at `ia` has the entries `F ia`.
* False of the code: functions that take the number of a tensor (`get_cellstride()` is the stride of the first axis of the tensors), `broadcast_copy(x)`, sums with one tensor (commented out), the check of sizes of
  `add_reduce`, and empty arrays in the two functions that work along an axis.
* Not modelled: scattered products, gathering, devices, ATen.

## Small vectors and objects made on demand

* `Model/Minivec.lean` is `containers/minivec.hpp` in the build with CUDA: a heap of blocks on the host and on the GPU, allocation that does not fail, and undefined behaviour for access, release or copying on the wrong
  side.  Programs are lists of calls on numbered vectors; C620 is an invariant over all states they reach.
* False of the code: moving from a vector on the GPU (the new vector says it is on the host) and the filling constructor (an unset member is passed on).
* `Model/Monitored.lean` is `utility/monitored.hpp` with one monitor; the making function is what its successive calls return.  False of the code: copies of objects not made yet throw on use, and copies are not watched.
* Not modelled: printing, negative lengths, devices other than 0 and 1 beyond what the definitions say.
* `Model/GPUbuffer.lean` is `containers/GPUbuffer.hpp` and `containers/AsyncGPUbuffer.hpp` on the same heap; copies with a stream are finished when the call returns, and a negative `int` compared with a `size_t` is very large.
  False of the code: negative positions and sizes, copies, the constructor of the two-sided buffer (leak) and `min_size` (comparison the wrong way round).
* `Model/Iview.lean` is the accumulating part of `tensor_views/Itensor2_view.hpp` (CUDA build, one memory, strides and sizes natural numbers); sums and products that do not fit into 32 bits are undefined. Of `block` only the sizes are modelled.
  False of the code: copying irregular matrices on the GPU, adding on the GPU (both do nothing), products with large terms, block sizes below -1.
* `Model/Iview3.lean` adds sums of `tensor_views/Itensor1_view.hpp` and the product of `tensor_views/Itensor3_view.hpp` with the same conventions.
  False of the code: adding strided vectors (overwrites), sums on the GPU (0), products of stacks that are not cubes (wrong loop bounds).
* `Model/IntPoolMem.lean` is the memory of `containers/int_pool.hpp` (constructor, copy, move, transport, destructor) on the heap of `Model/Minivec`.
  False of the code: copying, destroying and moving pools that lie on the GPU.
* `Model/Pvector.lean` is `legacy/labeled/pvector.hpp` on a heap of objects.
  False of the code: both assignments (no `return`; the old pointers stay after deletion).
* `Model/FratReal.lean` is the conversion of factored fractions to `double` and `log` (`math/frational.hpp`), with `double` a field: no rounding.
* `Model/Iview1.lean` is copying, filling, cutting and listing in `tensor_views/Itensor1_view.hpp`.
  False of the code: strided copies and lists of vectors on the GPU.
* `Model/VecHelpers.lean` is `permute`, `mapcar` and `indenter` of `include/Cnine_base_helpers.hpp`.
  False of the code: `permute` does not refuse positions outside the vector.
* `Model/TreeMem.lean` is the memory of `combinatorial/labeled_tree.hpp`: copies, the destructor, moves and `branch` on a heap of nodes.
  False of the code: the destructor after `push_back` of one pointer twice.
* `Model/IMapMove.lean` is the destructor and the moves of `containers/indexed_map.hpp`, on the heap of `Model/Maps.lean`.
  False of the code: moving a map into itself, and the move assignment of `indexed_map`.
