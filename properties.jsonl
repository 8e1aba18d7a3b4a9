{"id": "C01", "title": "Integer division and remainder", "statement": "With debug checks on, dividing a strict integer by zero (/, %, /=, %=) always traps and never executes undefined behaviour; with any other divisor the result is the quotient truncated toward zero and the matching remainder, so x == (x/y)*y + x%y, the only other undefined case being MIN / -1 (and MIN % -1) of a signed type.", "quantifier": "every integer type width and signedness, every pair of representable operands, debug and release builds", "why_tests_cant": "the operand space is 2^128 pairs for long and the claim includes the absence of undefined behaviour", "anchors": ["strictpp/StrictCommon/strict_val.hpp: operator/, operator%, operator/=, operator%=", "strictpp/StrictCommon/error.hpp: ASSERT_STRICT_DIVISION_DEBUG, ASSERT_STRICT_REMAINDER_DEBUG"]}
{"id": "C02", "title": "Signed arithmetic is exact or undefined, unsigned wraps", "statement": "+, -, *, unary minus, ++ and -- on strict integers return exactly the mathematical result when it is representable; for signed types an unrepresentable result is undefined behaviour (the library never returns a silently wrong signed value and never detects it either), for unsigned types the result is reduced modulo 2^width. Compound assignments agree with the binary operators.", "quantifier": "every integer width, signedness and operand pair, both build modes", "why_tests_cant": "needs all operand pairs of 64-bit types and a statement about overflow, which a test cannot observe without executing undefined behaviour", "anchors": ["strictpp/StrictCommon/strict_val.hpp: operator+, operator-, operator*, operator++, operator--, operator+=, operator-=, operator*="]}
{"id": "C03", "title": "Shifts", "statement": "With debug checks on, shifting traps when either signed operand is negative; when both operands are non-negative and the shift count is below the width, << multiplies by 2^y modulo 2^width and >> divides by 2^y rounding down. The debug check does not cover shift counts >= width: those are undefined behaviour in both modes (a defect relative to 'rigorous error handling').", "quantifier": "every integer width, signedness, operand pair and build mode", "why_tests_cant": "the defect is reachable only for particular counts and shows up as undefined behaviour, which tests cannot assert on", "anchors": ["strictpp/StrictCommon/strict_val.hpp: operator<<, operator>>, operator<<=, operator>>=", "strictpp/StrictCommon/error.hpp: ASSERT_STRICT_SHIFT_DEBUG"]}
{"id": "C04", "title": "Debug checks are transparent", "statement": "Whenever an operation, or a whole program of operations, runs to completion in the debug build, it runs to completion in the release build (checks compiled out) with the identical results and the identical final state of every object. For scalars, element access and the pseudo-random generator undefined behaviour in the debug build is undefined behaviour in the release build too. For array operations that converse is false: checks that add or multiply their arguments (the end of a strided slice, the end of a removed range) can themselves overflow, which is undefined behaviour the release build does not have. A program that catches the exception of a failed check can observe the difference, so programs with handlers are excluded.", "quantifier": "every modelled operation, every argument and state, programs of any length over any number of arrays, every expression text", "why_tests_cant": "tests are compiled in one mode and compare finitely many calls", "anchors": ["strictpp/StrictCommon/error.hpp: ASSERT_STRICT_DEBUG, ASSERT_STRICT_ALWAYS", "strictpp/StrictCommon/strict_val.hpp", "strictpp/array_base1D.hpp", "strictpp/array_base2D.hpp", "strictpp/slice.hpp"]}
{"id": "C05", "title": "Integer power", "statement": "pows(x, n) for integers with n >= 0 returns exactly x^n, and performs no overflowing intermediate multiplication whenever x^n itself is representable; a negative exponent traps in debug builds.", "quantifier": "every base, exponent and integer width", "why_tests_cant": "square-and-multiply overflow depends on the bit pattern of the exponent; no finite sample settles it", "anchors": ["strictpp/StrictCommon/strict_math.hpp: pows"]}
{"id": "C06", "title": "Factorial", "statement": "factorial(n) for n >= 0 returns n! whenever n! is representable, traps for negative n in debug builds.", "quantifier": "every n and integer width", "why_tests_cant": "needs induction on n", "anchors": ["strictpp/StrictCommon/strict_val_ops.hpp: factorial"]}
{"id": "C07", "title": "Binomial coefficient", "statement": "binom_coeff(n, k) for 0 <= k <= n returns n choose k: every division in the loop is exact, and no intermediate product overflows exactly when (n choose k)*k is representable (and n is below the largest value); other arguments trap in debug builds. (It is false that it succeeds whenever the result itself is representable.)", "quantifier": "all n, k and integer widths", "why_tests_cant": "exactness of every intermediate division is a number-theoretic fact over all n and k", "anchors": ["strictpp/StrictCommon/strict_val_ops.hpp: binom_coeff"]}
{"id": "C08", "title": "Sign, absolute value, minimum, maximum, clamp", "statement": "abss(x) = |x| for every representable x except the most negative signed value (undefined behaviour); mins/maxs return the smaller/larger argument; clamps(x, low, high) returns a value in [low, high], equals x when x already lies there, is idempotent and monotone, traps in debug when low > high and is undefined then in builds without checks; signs is the sign function.", "quantifier": "every integer value and every linear order", "why_tests_cant": "corner values (MIN) are one in 2^64", "anchors": ["strictpp/StrictCommon/strict_math.hpp: abss, signs, mins, maxs", "strictpp/StrictCommon/strict_val_ops.hpp: clamps"]}
{"id": "C09", "title": "Interval membership and selection", "statement": "in_open/in_closed are true exactly when low < x < high (low <= x <= high); in_open_range/in_closed_range/in_cond_range of a one-dimensional array or expression never fail and give a view of exactly the elements in the interval (satisfying the predicate), in their original order, without duplicates or omissions. Bounds in the wrong order trap in debug.", "quantifier": "every linearly ordered value, every array length, every predicate", "why_tests_cant": "all arrays of all lengths", "anchors": ["strictpp/StrictCommon/strict_val_ops.hpp: in_open, in_closed", "strictpp/array_ops.hpp: in_open_range, in_closed_range, in_cond_range"]}
{"id": "C10", "title": "Fast power with signed exponent", "statement": "fast_pows_int(x, p) in exact arithmetic equals x^p for p >= 0 and 1/x^|p| for p < 0.", "quantifier": "every field, every x, every integer p other than the most negative one", "why_tests_cant": "unbounded exponents", "anchors": ["strictpp/StrictCommon/strict_val_ops.hpp: fast_pows_int"]}
{"id": "C11", "title": "TwoSum is error free", "statement": "two_sums(x, y) returns r = fl(x+y) and s with r + s = x + y exactly, for binary floating-point with round-to-nearest and no overflow.", "quantifier": "every precision p >= 2, every pair of floating-point numbers", "why_tests_cant": "2^128 pairs for double; cancellation cases are measure-zero", "anchors": ["strictpp/StrictCommon/strict_val_ops.hpp: two_sums"]}
{"id": "C12", "title": "TwoProd is error free", "statement": "two_prods(x, y) returns r = fl(x*y) and s with r + s = x*y exactly, given a correctly rounded fused multiply-add and no underflow.", "quantifier": "every precision, every pair of floating-point numbers", "why_tests_cant": "2^128 pairs for double", "anchors": ["strictpp/StrictCommon/strict_val_ops.hpp: two_prods"]}
{"id": "C13", "title": "Compensated power is first-order exact", "statement": "pow_prods(x, p) returns (r, s) whose sum equals x^p up to terms of second order in the rounding errors, for every exponent p >= 0 (special cases 0..5 and the general loop), never indexes its scratch buffer out of range, and r equals the plainly rounded repeated product in exact arithmetic.", "quantifier": "every exponent p >= 0 and base x", "why_tests_cant": "the loop's bookkeeping (which partial product multiplies which error) must be right for every p", "anchors": ["strictpp/StrictCommon/strict_val_ops.hpp: pow_prods"]}
{"id": "C14", "title": "seqN slices stay in range", "statement": "A seqN(start, size, stride) slice is accepted exactly when every element index start + i*stride, 0 <= i < size, lies inside the sliced object; in debug builds every other request traps, so no accepted slice can read or write outside its base. The exception are requests whose last position start + stride*(size-1) is not computable in index_t: there the check itself overflows, which is undefined.", "quantifier": "every start, size, stride (positive, negative, zero) and base length", "why_tests_cant": "only the two endpoints are checked by the code; that this covers all elements needs proof over all sizes", "anchors": ["strictpp/slice.hpp: seqN, SliceWrapper<Base, seqN>", "strictpp/slicearray_base1D.hpp: SliceArrayBase1D"]}
{"id": "C15", "title": "seq slices are inclusive ranges", "statement": "seq(first, last, stride) selects exactly first, first+stride, ... up to and including the last point that does not pass last (in the direction of the stride); a stride of zero selects first once; inconsistent directions trap in debug.", "quantifier": "every first, last, stride", "why_tests_cant": "integer division rounding and sign cases over all integers", "anchors": ["strictpp/slice.hpp: seq, seq::to_slice, SliceWrapper<Base, seq>"]}
{"id": "C16", "title": "Named slices select the documented index lists", "statement": "all, even, odd, reverse, skipN, firstN, lastN select exactly [0..n), the even indices, the odd indices, the reversed indices, every stride-th index, the first k and the last k indices respectively, in that order, for every length including zero.", "quantifier": "every array length and parameter", "why_tests_cant": "rounding in the element counts matters for every length modulo the stride", "anchors": ["strictpp/slice.hpp: SliceWrapper for All, Even, Odd, Reverse, skipN, firstN, lastN"]}
{"id": "C17", "title": "Complement slices", "statement": "complement of a strictly increasing index vector selects, in increasing order, exactly the indices not in the vector; together they partition [0, n). Vectors that are not strictly increasing or out of range trap in debug.", "quantifier": "every length and every strictly increasing index vector", "why_tests_cant": "a two-pointer merge over all vectors", "anchors": ["strictpp/ArrayCommon/valid.hpp: valid_complement_index_vector, complement_index_vector", "strictpp/slice.hpp: complement, SliceWrapper<Base, complement>"]}
{"id": "C18", "title": "last - k arithmetic", "statement": "For the position object last, A[last - k] denotes A[size-1-k] and chains (last - a - b, last - a + b) compose, for element access and 1D removal.", "quantifier": "every size and offset", "why_tests_cant": "all integer offsets", "anchors": ["strictpp/StrictCommon/auxiliary_types.hpp: Last, operator+, operator-", "strictpp/ArrayCommon/index_helper.hpp: IndexWrapper<Last>", "strictpp/array_base1D.hpp: remove(Last)"]}
{"id": "C19", "title": "Slices of slices compose", "statement": "Element i of A(s1)(s2) is element s1(s2(i)) of A, to any nesting depth; every accepted nested slice only touches elements of the base array. A nested slice is accepted if and only if each request is meaningful for the number of elements selected before it, and it selects what the requests, one after the other, ask for.", "quantifier": "every nesting depth and every valid slice at each level", "why_tests_cant": "unbounded nesting", "anchors": ["strictpp/derived1D.hpp: operator()", "strictpp/slicearray_base1D.hpp: un", "strictpp/slice.hpp: SliceArrayWrapper"]}
{"id": "C20", "title": "Slice assignment writes exactly the selected elements", "statement": "Assigning a value, a list or a non-aliasing array/expression to a slice changes exactly the selected elements, to the corresponding source elements (the last write wins for repeated indices), and leaves all other elements and the size of the base unchanged.", "quantifier": "every base, valid slice and source", "why_tests_cant": "frame condition over all elements of all arrays", "anchors": ["strictpp/slicearray_base1D.hpp: operator=", "strictpp/ArrayCommon/algorithm.hpp: copy, fill"]}
{"id": "C21", "title": "Bounds checking", "statement": "With debug checks on, element access traps exactly when the index is outside [0, size) and otherwise returns that element; at() does so in every build mode; neither ever touches memory outside the array.", "quantifier": "every index and array, 1D and 2D, both build modes", "why_tests_cant": "all indices including negative and huge", "anchors": ["strictpp/derived1D.hpp: operator[], at, un", "strictpp/derived2D.hpp: operator(), at, un", "strictpp/ArrayCommon/valid.hpp: valid_index, valid_row, valid_col"]}
{"id": "C22", "title": "Ownership of storage", "statement": "Through any sequence of construction, copy, move, assignment, swap, resize and destruction, including statements that throw because a check fails, an element computation throws or memory runs out, every allocated block is owned by exactly one array, every block is released exactly once and by the form of delete that matches its allocation, no array uses a released block, and destroying all arrays releases everything. A statement that throws while it constructs, assigns, resizes, inserts or removes leaves the contents of all arrays as they were.", "quantifier": "every finite history of operations on any number of arrays", "why_tests_cant": "quantifies over histories of unbounded length", "anchors": ["strictpp/array_base1D.hpp: ArrayBase1D constructors, destructor, operator=, swap, resize, resize_and_assign"]}
{"id": "C23", "title": "1D arrays behave like lists under every history", "statement": "Any sequence of resize, insert, remove, assignment, swap and move operations on 1D arrays yields exactly the contents and sizes of the same sequence of list operations; operations with invalid arguments trap in debug.", "quantifier": "every finite history of operations, every argument", "why_tests_cant": "unbounded histories and sizes", "anchors": ["strictpp/array_base1D.hpp"]}
{"id": "C24", "title": "1D resize", "statement": "resize(n, true) keeps the first min(n, size) elements and fills the rest with zero; resize(n, false) to a different size gives n zeros; to the same size both leave the array untouched (so resize(size,false) does not reset it).", "quantifier": "every size, new size and contents", "why_tests_cant": "all sizes", "anchors": ["strictpp/array_base1D.hpp: resize"]}
{"id": "C25", "title": "1D removal", "statement": "remove(pos, count) deletes exactly elements pos..pos+count-1 keeping the order of the others; remove_front/remove_back/remove(last - k) are the corresponding special cases; invalid ranges trap in debug and leave the array as it was. (With a count so large that pos + count is not an index_t, the check itself overflows, which is undefined.)", "quantifier": "every array, position and count", "why_tests_cant": "all positions, counts and sizes", "anchors": ["strictpp/array_base1D.hpp: remove, remove_front, remove_back"]}
{"id": "C26", "title": "1D removal of an index set", "statement": "remove(indices) for a strictly increasing index vector deletes exactly those elements and keeps the others in order.", "quantifier": "every array and strictly increasing index vector", "why_tests_cant": "all subsets", "anchors": ["strictpp/array_base1D.hpp: remove(const vector<ImplicitInt>&)"]}
{"id": "C27", "title": "1D insertion", "statement": "insert(pos, x) and insert(pos, A2) produce the list with the new elements spliced in at pos (0 <= pos <= size), insert_front/insert_back are the special cases; other positions trap in debug.", "quantifier": "every array, position and inserted contents", "why_tests_cant": "all positions and sizes", "anchors": ["strictpp/array_base1D.hpp: insert, insert_front, insert_back"]}
{"id": "C28", "title": "Insertion and removal are inverse", "statement": "Removing the just inserted elements restores the original array; reinserting removed elements at the same place restores the original array.", "quantifier": "every array, position and inserted block", "why_tests_cant": "all positions and sizes", "anchors": ["strictpp/array_base1D.hpp: insert, remove"]}
{"id": "C29", "title": "Copy, move and swap of 1D arrays", "statement": "Copying duplicates contents without linking the two arrays; moving transfers contents and leaves the source empty; assignment requires equal sizes (trap in debug) and handles self-assignment; swap exchanges contents; resize_and_assign takes the size of the source.", "quantifier": "every pair of arrays including the same array", "why_tests_cant": "histories and aliasing pairs", "anchors": ["strictpp/array_base1D.hpp: ArrayBase1D(const ArrayBase1D&), ArrayBase1D(ArrayBase1D&&), operator=, swap, resize_and_assign"]}
{"id": "C30", "title": "Rejected calls leave arrays unchanged", "statement": "If a modifying member of an owning array traps (exception mode) because its arguments are invalid, every array involved has the contents it had before the call. (False for assignment from an expression whose elements themselves trap while being evaluated, e.g. integer division by zero in the middle: a prefix has been overwritten; resize_and_assign does not have this problem.)", "quantifier": "every operation, argument and state; every position at which an element may trap", "why_tests_cant": "crash-point quantification: the trap may occur at any element", "anchors": ["strictpp/array_base1D.hpp", "strictpp/array_base2D.hpp", "strictpp/StrictCommon/error.hpp: StrictException"]}
{"id": "C31", "title": "Aliasing assignment", "statement": "A = expr where every element of expr depends on A only through the element at the same position gives the same result as evaluating expr into a temporary first; resize_and_assign and eval are safe for every expression. (For shifted or reversed reads of A, plain assignment is wrong: A = A(reverse) smears.)", "quantifier": "every expression tree over the assigned array", "why_tests_cant": "quantifies over all expression trees and sizes", "anchors": ["strictpp/ArrayCommon/algorithm.hpp: copy", "strictpp/array_base1D.hpp: operator=, resize_and_assign", "strictpp/derived1D.hpp: eval"]}
{"id": "C32", "title": "Row-major layout", "statement": "The linear index i*cols + j of a 2D array is a bijection between in-range (row, col) pairs and [0, size), with inverse (i / cols, i % cols), so linear and two-index access denote the same element.", "quantifier": "all dimensions and indices", "why_tests_cant": "all dimensions", "anchors": ["strictpp/ArrayCommon/index_helper.hpp: index_map_one_to_two_dim", "strictpp/array_base2D.hpp: un", "strictpp/fixed_array_base2D.hpp: un"]}
{"id": "C33", "title": "Linear and two-index access agree for every 2D expression", "statement": "For every well-formed 2D expression tree (arrays, blocks, element-wise operations, transposes, merges, broadcasts, tensor products, reshapes, ...) element k in linear order equals element (k / cols, k % cols), and size = rows*cols.", "quantifier": "every expression tree and index", "why_tests_cant": "unbounded nesting of expression templates", "anchors": ["strictpp/Expr/types.hpp", "strictpp/slicearray_base2D.hpp: un", "strictpp/attach2D.hpp: view2D", "strictpp/Expr/special.hpp"]}
{"id": "C34", "title": "Shape invariant of 2D arrays", "statement": "After any history of operations the number of stored elements equals rows*cols, and rows = 0 exactly when cols = 0. (False for self move-assignment, which leaves dimensions 0x0 with the data still present; insert_row of an empty vector into an empty array in release mode gives 1x0.)", "quantifier": "every finite history of 2D array operations", "why_tests_cant": "unbounded histories", "anchors": ["strictpp/array_base2D.hpp"]}
{"id": "C35", "title": "2D resize", "statement": "resize(m, n, true) keeps the overlapping top-left block and zero-fills the rest; resize(m, n, false) to a different total size gives zeros; to different dimensions with the same total it reinterprets the old data in row-major order.", "quantifier": "all old and new dimensions and contents", "why_tests_cant": "all dimensions", "anchors": ["strictpp/array_base2D.hpp: resize", "strictpp/ArrayCommon/algorithm.hpp: copy_rows, copy_cols"]}
{"id": "C36", "title": "Row and column removal", "statement": "remove_rows/remove_cols(pos, count) and the index-set versions delete exactly the requested rows/columns and keep the others in order.", "quantifier": "all dimensions, positions, counts and index sets", "why_tests_cant": "all dimensions", "anchors": ["strictpp/array_base2D.hpp: remove_rows, remove_cols, remove_row, remove_col"]}
{"id": "C37", "title": "remove_row(last - k) / remove_col(last - k)", "statement": "remove_row(last - k) and remove_col(last - k) remove one row (column) and keep the others in order, and on an empty array trap in debug and change nothing. For k = 0 it is the last one, as expected. But the argument is ignored: for every k the last row (column) is removed, not the k-th from the end as by 1D remove and element access.", "quantifier": "every array and k", "why_tests_cant": "requires all k; tests only used last itself", "anchors": ["strictpp/array_base2D.hpp: remove_row(Last), remove_col(Last)"]}
{"id": "C38", "title": "Row and column insertion", "statement": "insert_rows/insert_cols/insert_row/insert_col splice the given rows/columns in at the requested position and leave all other rows/columns in order; inserting into an empty array adopts the inserted shape; mismatched shapes trap in debug.", "quantifier": "all dimensions, positions and inserted contents", "why_tests_cant": "all dimensions", "anchors": ["strictpp/array_base2D.hpp: insert_rows, insert_cols, insert_row, insert_col"]}
{"id": "C39", "title": "Row and column insertion and removal are inverse", "statement": "Removing just inserted rows (columns) restores the array.", "quantifier": "all dimensions and positions", "why_tests_cant": "all dimensions", "anchors": ["strictpp/array_base2D.hpp"]}
{"id": "C40", "title": "Row, column, diagonal and block views", "statement": "row(i), col(j), diag(), diag(k) and block/blockN views refer to exactly the documented elements, in order, never outside the array, and out-of-range requests trap in debug.", "quantifier": "all dimensions and parameters, including every off-diagonal", "why_tests_cant": "all dimensions and offsets", "anchors": ["strictpp/derived2D.hpp: row, col, diag, diag_slice_impl, block, blockN"]}
{"id": "C41", "title": "Reshaping views", "statement": "view2D(m, n) and view1D() of the same storage refer to the same elements in row-major order, and round-trip; view2D requires m*n == size in every build mode.", "quantifier": "all dimensions", "why_tests_cant": "all dimensions", "anchors": ["strictpp/attach2D.hpp: view2D, convert_slice2D", "strictpp/derived2D.hpp: view1D"]}
{"id": "C42", "title": "2D slices with an empty factor are 0x0", "statement": "A two-dimensional slice with no rows or no columns selected is a 0x0 object, so every slice satisfies rows = 0 iff cols = 0 and size = rows*cols.", "quantifier": "all slices of all 2D objects", "why_tests_cant": "all slice pairs", "anchors": ["strictpp/slicearray_base2D.hpp: SliceArrayBase2D"]}
{"id": "C43", "title": "Lazy element-wise evaluation", "statement": "For every expression tree accepted by the debug build, every in-range element can be evaluated without touching memory outside the operands, and evaluating the whole expression gives the element-by-element result of the corresponding list computation.", "quantifier": "every expression tree of any depth over any arrays", "why_tests_cant": "unbounded trees", "anchors": ["strictpp/Expr/types.hpp", "strictpp/Expr/binary.hpp: generate", "strictpp/Expr/unary.hpp: generate"]}
{"id": "C44", "title": "Transpose", "statement": "transpose(A)(i, j) = A(j, i) with dimensions swapped, transposing twice gives A back, and evaluating in place through a temporary gives the transposed matrix.", "quantifier": "all dimensions and expressions", "why_tests_cant": "all dimensions", "anchors": ["strictpp/Expr/special.hpp: transpose"]}
{"id": "C45", "title": "Concatenation", "statement": "merge is list concatenation (associative, any number of operands, scalars at either end); merge_horizontal/merge_vertical put matrices side by side/on top of each other and treat an empty operand as neutral.", "quantifier": "all operands and sizes", "why_tests_cant": "all sizes", "anchors": ["strictpp/Expr/special.hpp: merge, merge_horizontal, merge_vertical, horizontal_op"]}
{"id": "C46", "title": "exclude", "statement": "exclude(A, pos, count) is the lazy counterpart of remove: it reads as the list without those elements. exclude(A, last - k) should drop the k-th element from the end. (False: k is ignored.)", "quantifier": "every array, position, count and k", "why_tests_cant": "all sizes", "anchors": ["strictpp/Expr/special.hpp: exclude"]}
{"id": "C47", "title": "Generators", "statement": "sequence/irange give start + incr*i; linspace(n, a, b) with n >= 2 starts at a, ends at b and has equal steps (with n = 1 it divides by zero); e_unit, identity, const1D and const2D give unit vectors, identity matrices and constants.", "quantifier": "all sizes and values", "why_tests_cant": "all sizes", "anchors": ["strictpp/Expr/special.hpp: sequence, linspace, irange, e_unit, identity, const1D, const2D"]}
{"id": "C48", "title": "Reductions along rows and columns, broadcasts, tensor and matrix-vector products", "statement": "row_reduce/col_reduce apply the operation to each row/column; row_broadcast/col_broadcast replicate the vector along rows/columns; tensor_prod(x, y)(i, j) = x[i]*y[j]; matvec_prod(A, x)[i] is the dot product of row i with x.", "quantifier": "all dimensions, operands and operations", "why_tests_cant": "all dimensions", "anchors": ["strictpp/Expr/special.hpp: row_reduce, col_reduce, row_broadcast, col_broadcast", "strictpp/Expr/binary.hpp: tensor_prod, matvec_prod"]}
{"id": "C49", "title": "Expressions do not dangle", "statement": "An expression object stored in a variable may be evaluated later as long as the arrays it was built from are alive, because slices and sub-expressions are stored by copy. (True for all node kinds except transpose, which keeps a reference to a temporary slice/expression operand, and matvec_prod, which keeps a reference to a local variable.)", "quantifier": "every expression tree", "why_tests_cant": "unbounded trees; a dangling read may appear to work", "anchors": ["strictpp/Expr/types.hpp: CopyOrReferenceExpr", "strictpp/ArrayCommon/array_traits.hpp: CopyOrReferenceExpr", "strictpp/Expr/special.hpp: transpose", "strictpp/Expr/binary.hpp: matvec_prod"]}
{"id": "C50", "title": "Compound assignment", "statement": "A op= B and A op= x update every element to A[i] op B[i] (A[i] op x) and nothing else; sizes must agree (trap in debug). If A is a view that selects an element several times, the element is combined with each of the corresponding elements of B in turn.", "quantifier": "every array, operand and operator", "why_tests_cant": "all sizes", "anchors": ["strictpp/derived_base.hpp"]}
{"id": "C51", "title": "Equality", "statement": "A == B holds exactly when the shapes are equal and all corresponding elements are equal; != is its negation; 1D equality is an equivalence relation when element equality is.", "quantifier": "all arrays", "why_tests_cant": "all arrays", "anchors": ["strictpp/ArrayCommon/array_auxiliary.hpp: operator==, operator!=, equal"]}
{"id": "C52", "title": "sum, prod, mean, dot_prod", "statement": "sum, prod and dot_prod return the exact sum, product and inner product in exact arithmetic (left to right for non-associative arithmetic), mean the sum over the count, and the supplied default on empty input.", "quantifier": "all arrays over any ring/field", "why_tests_cant": "all lengths", "anchors": ["strictpp/array_ops.hpp: sum, prod, mean, dot_prod"]}
{"id": "C53", "title": "min, max and their indices", "statement": "min/max return an attained bound of all elements; min_index/max_index return the first index attaining it, for 1D and 2D (row-major first) arrays; empty arrays give the default/none.", "quantifier": "all arrays over any linear order", "why_tests_cant": "all lengths and tie patterns", "anchors": ["strictpp/array_ops.hpp: min, max, min_index, max_index"]}
{"id": "C54", "title": "Quantifier operations", "statement": "any_of/all_of/none_of (and has_zero, all_positive, ... built on them), unary and pairwise, decide the existential/universal statement over all elements; on empty input they return the supplied default (false), so all_of(empty) is false unless overridden.", "quantifier": "all arrays and predicates", "why_tests_cant": "all lengths", "anchors": ["strictpp/array_ops.hpp: any_of, all_of, none_of, has_zero, all_zeros"]}
{"id": "C55", "title": "Polynomial evaluation", "statement": "polynomial(c, x) = sum c_i x^i, polynomial with powers = sum c_i x^(p_i), gpolynomial = sum c_i x_i^(p_i), in exact arithmetic.", "quantifier": "all coefficient vectors, over any commutative ring/field", "why_tests_cant": "all degrees", "anchors": ["strictpp/array_ops.hpp: polynomial, gpolynomial"]}
{"id": "C56", "title": "Norms", "statement": "norm_inf, norm1 and norm_lp of exact inputs equal the mathematical definitions; norm_inf is zero exactly for the zero vector.", "quantifier": "all arrays", "why_tests_cant": "all lengths", "anchors": ["strictpp/array_ops.hpp: norm_inf, norm1, norm_lp, norm2"]}
{"id": "C57", "title": "Sorting", "statement": "sort, sort_increasing and sort_decreasing leave a sorted permutation of the original elements if the comparison is a strict weak order on these elements; nothing else changes.", "quantifier": "all arrays over any linear order", "why_tests_cant": "all permutations", "anchors": ["strictpp/array_ops.hpp: sort, sort_increasing, sort_decreasing"]}
{"id": "C58", "title": "Compensated summation is exact up to the compensation", "statement": "stable_sum computes s and c such that, with error-free compensation terms and exactly accumulated c, s + c is exactly the sum; in exact arithmetic stable_sum equals sum.", "quantifier": "all arrays, every rounding of the main sum", "why_tests_cant": "all lengths and rounding patterns", "anchors": ["strictpp/array_stable_ops.hpp: stable_sum"]}
{"id": "C59", "title": "Compensated summation error bound", "statement": "In binary floating-point with round-to-nearest, |stable_sum(A) - sum| <= u*|sum| + (second-order in u) * sum|a_i|.", "quantifier": "every precision, every array", "why_tests_cant": "all arrays; the bound cannot be sampled", "anchors": ["strictpp/array_stable_ops.hpp: stable_sum"]}
{"id": "C60", "title": "Blocked summation", "statement": "semi_stable_sum reads every element exactly once (blocks of 64 plus the remainder) and equals sum in exact arithmetic.", "quantifier": "all arrays of all lengths", "why_tests_cant": "block/remainder split for every length", "anchors": ["strictpp/array_stable_ops.hpp: semi_stable_sum"]}
{"id": "C61", "title": "Compensated product and dot product", "statement": "stable_prod and stable_dot_prod return the exact product and inner product in exact arithmetic; with exact error terms, p + s is the exact inner product whatever the rounding of the main operations.", "quantifier": "all arrays, every rounding", "why_tests_cant": "all lengths", "anchors": ["strictpp/array_stable_ops.hpp: stable_prod, stable_dot_prod, semi_stable_dot_prod"]}
{"id": "C62", "title": "Stable polynomials", "statement": "stable_polynomial and stable_gpolynomial agree with polynomial/gpolynomial in exact arithmetic.", "quantifier": "all coefficient vectors", "why_tests_cant": "all degrees", "anchors": ["strictpp/array_stable_ops.hpp: stable_polynomial, stable_gpolynomial"]}
{"id": "C63", "title": "Iteration visits every element once in order", "statement": "Traversing begin()..end() visits elements 0..size-1 once each in order, rbegin()..rend() in reverse; iterator arithmetic obeys the random-access laws; dereferencing outside the range traps in debug.", "quantifier": "all arrays and offsets", "why_tests_cant": "all sizes and offsets", "anchors": ["strictpp/iterator.hpp: Iterator, ConstIterator", "strictpp/derived1D.hpp: begin, end, rbegin, rend"]}
{"id": "C64", "title": "IndexRange2D visits every (row, col) once", "statement": "Iterating IndexRange2D(m, n) visits every pair in row-major order exactly once and terminates, for every m, n (including 0x0).", "quantifier": "all dimensions", "why_tests_cant": "termination and coverage for all dimensions", "anchors": ["strictpp/iterator.hpp: PlaneIterator, IndexRange2D"]}
{"id": "C65", "title": "Row and column iterators", "statement": "Iterating rows (columns) of a 2D array visits row(0)..row(rows-1) (col(0)..col(cols-1)) in order, together covering every element exactly once.", "quantifier": "all dimensions", "why_tests_cant": "all dimensions", "anchors": ["strictpp/iterator.hpp: RowIt, ColIt, RowFlag, ColFlag"]}
{"id": "C66", "title": "Reading 1D arrays from streams", "statement": "Reading a 1D array consumes all numbers of the input, however many and whatever spaces separate them, and stores them in order; malformed text, or a number out of range, traps (unless assertions are compiled out altogether) and leaves the target array unchanged. Exception: a lone sign, or a number out of range, that is the very end of the input, with no character after it, is dropped without an error.", "quantifier": "every input token sequence", "why_tests_cant": "buffer doubling boundaries at all lengths", "anchors": ["strictpp/array_IO.hpp: istream_base_read, operator>>"]}
{"id": "C67", "title": "Reading 2D arrays from streams", "statement": "Reading a 2D array stores the rows of the input in order, skipping lines without numbers before the first row and empty lines after it; a later row of another length (a line of spaces counts as one) and malformed text trap and leave the target unchanged. A text without numbers gives the 0x0 array. (In release mode an over-long row is written past the row, and past the buffer if it does not fit the reserved space, before the check. After a successful read the stream is left in a failed state.)", "quantifier": "every input text", "why_tests_cant": "every combination of row lengths and buffer doublings", "anchors": ["strictpp/array_IO.hpp: get_first_row, get_row, istream_base_read"]}
{"id": "C68", "title": "Semi-random integers lie in the requested range", "statement": "semi-random integer generation over [low, high] - for a scalar, an array or an expression - always returns values in [low, high], is a deterministic function of the seed, and its internal state never overflows, provided the number of values in the range is representable in the type. (Over wider ranges, such as all values of a type, it is undefined or traps. Over ranges of 1, 2, 4 or 8 values other than {0, 1} every draw is the same number.)", "quantifier": "every seed, range, array and number of draws", "why_tests_cant": "infinite output sequences", "anchors": ["strictpp/Util/semi_random.hpp: SemiGenerator"]}
{"id": "C69", "title": "Semi-random non-zero generation terminates", "statement": "A value returned by semi_rands_not0(low, high) is non-zero and in the range; it is the first draw when zero is not in the range, and over {0, 1} a value is returned for every seed. In general it need not return: the low three bits of the generator state never change, so on ranges of size 2, 4 or 8 positioned so that the fixed residue hits zero, e.g. [-1, 0], the loop never terminates, for any seed; on other ranges, and when filling arrays even over {0, 1}, it fails to terminate for some seeds.", "quantifier": "every seed", "why_tests_cant": "non-termination cannot be tested, and holds for every seed", "anchors": ["strictpp/Util/semi_random.hpp: SemiGenerator, semi_rands_not0"]}
{"id": "C70", "title": "Tolerance comparisons", "statement": "within_tol_abs and within_tol_rel are reflexive (for non-negative tolerance) and symmetric, monotone in the tolerance, and the array versions hold exactly when all elements satisfy them; rel_error/max_rel_error return none exactly when a zero is involved.", "quantifier": "all values and arrays in exact arithmetic", "why_tests_cant": "all values", "anchors": ["strictpp/Util/error_tools.hpp: within_tol_abs, within_tol_rel, rel_error, max_abs_error, max_rel_error"]}
{"id": "C71", "title": "for_each visits every element once, in order", "statement": "for_each(A, f) calls f once for every element from the first to the last; if f changes its argument, exactly the elements of A change (to their images), up to the first call that fails.", "quantifier": "every array, view, expression and function", "why_tests_cant": "all sizes and all functions, including failing ones", "anchors": ["strictpp/array_ops.hpp: for_each"]}
{"id": "C72", "title": "blas_array", "statement": "blas_array(A) returns a fresh buffer holding the elements of the array, slice or expression in row-major order, and a null pointer when there are none.", "quantifier": "every array, view and expression", "why_tests_cant": "all sizes and expression trees", "anchors": ["strictpp/array_ops.hpp: blas_array"]}
{"id": "C73", "title": "Rounding error of plain sums and inner products", "statement": "In binary floating point with round to nearest, sum(A) differs from the exact sum by at most ((1+u)^(n-1) - 1) times the sum of the absolute values, and dot_prod(A, B), when no product underflows, by at most ((1+u)^n - 1) times the sum of the absolute products.", "quantifier": "every precision, least exponent and array", "why_tests_cant": "all sizes and values", "anchors": ["strictpp/array_ops.hpp: sum, dot_prod"]}
{"id": "C74", "title": "Semi-random floating-point numbers lie in the requested range", "statement": "A semi-random float, double or long double over [low, high] lies in [low, high] although the division, the subtraction, the multiplication and the addition it is computed with all round; low > high traps in debug.", "quantifier": "every seed, every representable low <= high without overflow, every precision of at least 24 bits, every rule for breaking ties", "why_tests_cant": "the sharpest cases are single values out of 2^64 ranges", "anchors": ["strictpp/Util/semi_random.hpp: SemiGenerator, semi_rands"]}
{"id": "C75", "title": "Printed arrays and reading them back", "statement": "Printing a 1D array writes its elements in order, one per line or on one line in row style, below the name if there is one; in detailed format each is preceded by its index, aligned. Printing a 2D array writes one row per line with all fields right-aligned to the same width. Signed integers carry a sign, unsigned ones do not. Reading a printed integer array (without name and details), directly or through a file, restores exactly the array, for every size, shape, type and field width. Exceptions: printing a 2D array that contains the most negative value of its type is undefined behaviour, and printed boolean arrays cannot be read back (reading traps).", "quantifier": "every array, view and expression, every integer type, both styles, both formats", "why_tests_cant": "all sizes, values and digit counts; round trips through the text", "anchors": ["strictpp/array_IO.hpp: ostream_base_print, max_if_needed, integer_spacing, smart_spaces, print, printn, print_to_file, read_from_file", "strictpp/StrictCommon/strict_IO.hpp: operator<<, print, printn"]}
{"id": "C76", "title": "Printing and reading floating-point numbers", "statement": "In scientific format with precision P a number is printed with P + 1 significant digits, correctly rounded; in fixed format with P digits after the point. A printed array read back is exactly the array whenever 2^p < 10^P, p being the number of significant bits; the default format has this property for double. For float, long double and float128 the default precision is too small: different numbers are printed alike. In fixed format the number read is the one nearest to a decimal within half a unit of the last digit printed.", "quantifier": "every representable number, array and precision, every rule for breaking ties when reading", "why_tests_cant": "all values of the type, all precisions", "anchors": ["strictpp/StrictCommon/strict_IO.hpp: operator<<, operator>>, StrictFormat", "strictpp/array_IO.hpp: ostream_base_print, istream_base_read"]}
{"id": "C77", "title": "Bitwise operators", "statement": "&, |, ^ and ~ of strict integers, and the compound assignments, compute every binary digit (two's complement) of the result from the digits of the operands; they are defined for all operands, and ~x is -x-1 for signed and 2^bits-1-x for unsigned types.", "quantifier": "all operands of all integer types", "why_tests_cant": "2^128 operand pairs", "anchors": ["strictpp/StrictCommon/strict_val.hpp: operator&, operator|, operator^, operator~, operator&=, operator|=, operator^="]}
{"id": "C78", "title": "Comparisons and strict booleans", "statement": "Comparisons of strict integers are the comparisons of the numbers, and !, ^, && and || of strict booleans have the usual truth tables. But && and || always evaluate both operands, so i < A.size() && A[i] > x does not guard the access: it traps in debug and is undefined in release for i past the end (with bool{..} && bool{..} it is false).", "quantifier": "all operands, and all computations as operands", "why_tests_cant": "all arrays, indices and failing operands", "anchors": ["strictpp/StrictCommon/strict_val.hpp: operator==, operator!=, operator<, operator<=, operator>, operator>=, Strict<bool>::operator!, operator&&, operator||, operator^"]}
{"id": "C79", "title": "Conversions between number types", "statement": "Converting between integer types keeps the value if the target type has it, and otherwise gives the value congruent modulo 2^bits; from floating point to integers the fractional part is dropped, and the conversion is undefined exactly when the target type does not have the result; from integers to floating point the result is a nearest number, exact up to p bits, so int survives double but 2^p + 1 never survives a format with p bits. Zero is false, every other number true, and true is 1. No build checks conversions.", "quantifier": "all values of all types, every precision, every rule for breaking ties", "why_tests_cant": "all values", "anchors": ["strictpp/StrictCommon/strict_val.hpp: strict_cast, builtin_cast, real_cast, whole, to_size_t, to_index_t, sb, si, sl, sui, sul, sf, sd, sld"]}
{"id": "C80", "title": "Literals and named arguments", "statement": "The literals _si and _sl denote the number written, and one too large for the type is rejected in debug builds; in release builds it silently becomes another number. _sui and _sul reduce modulo 2^32 and 2^64 without a check in any build. Size, Rows, Cols, Pos, Count, First, Endmost, Index pass every int or long on unchanged and reject exactly the negative ones in debug builds; Stride and plain integer arguments are not restricted.", "quantifier": "all literals and all argument values", "why_tests_cant": "all values", "anchors": ["strictpp/StrictCommon/strict_literals.hpp: operator\"\"_si, _sl, _sui, _sul", "strictpp/StrictCommon/auxiliary_types.hpp: STRICT_GENERATE_SMALL_INT_TYPES"]}
{"id": "C81", "title": "Fixed-size arrays", "statement": "A fixed-size array (1D or 2D) has its declared size for its whole life. It starts with zeros, with a value, or with the elements of a list, an iterator range or another array or expression of that size; assigning a value, a list, an array or expression, move-assigning and swapping set exactly the elements. Copies are independent, and the source of a move (not of a self-move) keeps its size and holds zeros. A list or operand of another size is rejected in debug builds before any element changes; in release builds elements past the end are accessed.", "quantifier": "every size, array, list and history of operations", "why_tests_cant": "all sizes and all histories", "anchors": ["strictpp/fixed_array_base1D.hpp: FixedArrayBase1D, operator=, begin, end", "strictpp/fixed_array_base2D.hpp: FixedArrayBase2D"]}
{"id": "C82", "title": "Views of the caller's memory", "statement": "attach1D(p, n) over at least n elements behaves as an array of size n whose element i is p[i], and attach2D(p, m, n) as an m x n array whose element (i, j) is p[i*n + j] (0x0 when there are none): reads see the memory, writes change exactly the addressed element and filling sets exactly the first n. Negative sizes are rejected in debug builds. The library cannot know how much memory there is: a size that is too large is accepted and access beyond the memory is undefined in every build.", "quantifier": "every memory size, n, m and element", "why_tests_cant": "all sizes", "anchors": ["strictpp/attach1D.hpp: attach1D, strict_attach_ptr1D", "strictpp/attach2D.hpp: attach2D, strict_attach_ptr2D"]}
{"id": "C83", "title": "Random numbers from the standard library", "statement": "rands(low, high), random(A, B, ..., low, high) and the elements of random(n, low, high) lie in [low, high] whenever the values of the standard distribution do; arrays are filled in order and nothing else changes. rands_not0 returns the first value that is not zero and returns exactly when there is one; filled arrays contain no zeros. low > high and, for not0, low = high = 0 trap in debug builds (in release builds the first is undefined, the second never returns). Exceptions: quadruple-precision bounds are first rounded to double, so the numbers may lie outside; and the bounds are read again before every array, so in random(A, B, A[i], A[j]) those for B are the new elements of A, and the call may trap half-way.", "quantifier": "every distribution that keeps its contract, every state of the generator, every array, view and bound", "why_tests_cant": "arbitrary generators and unbounded sequences of draws", "anchors": ["strictpp/Util/random.hpp: rands, rands_not0, random, random_not0, detail::Generator"]}
{"id": "C84", "title": "Checked builds have no undefined behaviour", "statement": "In a build with debug checks, as long as sizes, positions and strides stay within 2^31 in absolute value and every object has fewer than 2^62 elements: building any view or expression, reading any element of it with any index, and running any sequence of assignments, fills, list assignments and compound assignments to arrays and views of any depth never has undefined behaviour, whether the views, sizes and indices make sense or not and whether the operands share memory or not. A statement either makes sense, or traps before it changes anything; a statement that makes sense changes only the elements its left-hand side selects, even if an element operation traps half-way; no statement changes a size. If all statements make sense the same holds in every build.", "quantifier": "every program of such statements, every expression tree, every index and every store of arrays", "why_tests_cant": "all programs, including invalid and aliasing ones", "anchors": ["strictpp/array_base1D.hpp, strictpp/array_base2D.hpp, strictpp/slicearray_base1D.hpp, strictpp/slicearray_base2D.hpp: operator=, operator+= etc.", "strictpp/ArrayCommon/array_common.hpp", "strictpp/slice.hpp", "strictpp/derived_base.hpp, strictpp/derived1D.hpp, strictpp/derived2D.hpp"]}
{"id": "C85", "title": "Operators of integer and boolean arrays", "statement": "For integer arrays, views and expressions of every integer type, A op B, x op A and A op x with + - * / % << >> & | ^, the unary + - ~ and abs, and conversion to another integer type have at every position exactly what the operator gives for the numbers there: the exact result (reduced modulo 2^bits for unsigned types) where there is one, a trap in debug builds for division by zero and negative shifts, undefined behaviour for signed overflow and what the debug checks do not cover. A op= B and A op= x write exactly those values in order, up to the first that fails, and change nothing else. Boolean arrays follow the truth tables of && || ^ and !.", "quantifier": "all integer types, operands, arrays, views, expressions and builds", "why_tests_cant": "all operand pairs at all positions of all expression trees", "anchors": ["strictpp/Expr/functors.hpp", "strictpp/Expr/binary.hpp: operator+ etc.", "strictpp/Expr/unary.hpp: operator-, operator~, operator!, abs, array_cast", "strictpp/derived_base.hpp: operator+= etc."]}
{"id": "C86", "title": "No views or expressions of temporary arrays", "statement": "A call of a function or operator that makes an expression, of a member that makes a view, or of one that returns iterators or pointers compiles exactly if its arguments have the right types and none of them is a temporary array that owns its elements (for iterators, data() and RowIt/ColIt: no temporary at all), except that generate, pow_prod, tensor_prod with one temporary and slicing a 1D array with an index list accept temporary arrays. So every array mentioned in an expression that compiles without those calls has a name, and the expression can be kept (transpose of an expression and matvec_prod aside) as long as the named arrays live. The result of the exceptional calls cannot be used once the temporary is gone.", "quantifier": "every function, every list of arguments of every kind, element type, dimension and value category; every expression tree", "why_tests_cant": "all argument combinations and all nestings; a test cannot contain programs that do not compile", "anchors": ["strictpp/Expr/unary.hpp, strictpp/Expr/binary.hpp, strictpp/Expr/special.hpp: deleted overloads", "strictpp/Expr/expr_traits.hpp", "strictpp/ArrayCommon/array_traits.hpp: ArrayTypeRvalue etc.", "strictpp/derived1D.hpp, strictpp/derived2D.hpp: operator(), row, col, block, view1D, view2D, begin, end", "strictpp/iterator.hpp: RowIt, ColIt"]}
{"id": "C87", "title": "Alignment of storage", "statement": "After any history of operations data() and blas_data() of an array are null exactly if it is empty; otherwise the pointer is a multiple of alignment(), which is 64 for arrays declared Aligned and 0 (no promise beyond that of new) for Unaligned ones. The flag of an array never changes, and moves and swaps exchange storage only between arrays with the same flag.", "quantifier": "every finite history on any number of arrays with either flag, every allocator that keeps the contract of operator new", "why_tests_cant": "misalignment shows only on some allocators and histories", "anchors": ["strictpp/array_base1D.hpp: alignment, data, blas_data, constructors, resize, swap"]}
{"id": "C88", "title": "When pointers to elements stay valid", "statement": "The pointer data() of an array changes only through the construction, destruction, resizing to another size, insertion, removal, move or swap of that very array: assigning elements, copying from it and statements on other arrays leave it valid, and so does every statement that throws. Moves and swaps do not copy: the target takes over the pointer, the source of a move is left with null. Different non-empty arrays never share storage.", "quantifier": "every finite history, every array and statement, every allocator", "why_tests_cant": "quantifies over histories of unbounded length and failures at any point", "anchors": ["strictpp/array_base1D.hpp: data, resize, resize_and_assign, swap, operator=, move constructor"]}
{"id": "C89", "title": "Arrays as Eigen matrices, and matrix products", "statement": "eigen::map(A) has the size of A, is read-only for const arrays, promises to Eigen an alignment the storage really has after any history, and its coefficient (i, j) is the element (i, j) of A. matrix_prod(A, B, C) stores in C at (i, j) the sum of products of row i of A and column j of B and changes nothing else, also if C is A or B; matrix_prod(A, B) returns it as a new array. For integers it is exact, and associative, while the sums of absolute values fit the type; for floating point it has the error bound of an inner product in whatever order Eigen adds. Sizes that do not fit are rejected in debug builds before anything changes; otherwise Eigen's assertions decide. Exception: map also accepts temporary arrays, and the map then refers to elements that no longer exist.", "quantifier": "all sizes, matrices, histories and summation orders, including aliasing arguments", "why_tests_cant": "all sizes and aliasing patterns; the summation order is Eigen's", "anchors": ["strictpp/Eigen/map.hpp: map, eigen_align", "strictpp/Eigen/matrix_ops.hpp: matrix_prod"]}
{"id": "C90", "title": "Floating-point literals", "statement": "A _sf, _sd or (floating) _sl literal that is a number of the type denotes it exactly; every other one denotes one of the two neighbours of the number written. Exception: the number is first rounded to long double, so _sf and _sd need not denote the nearer neighbour (whatever the rule for ties, there are literals for which they do not); no number of the type is nearer by more than 2^-63 relative to the literal. _sl denotes a nearest number. _sq denotes a nearest number for every decimal literal, with two exceptions: a literal that starts like a binary or octal integer, such as 07.5_sq, is rejected, and everything from the first digit separator on is ignored, so 1'000.5_sq is 1.", "quantifier": "every decimal literal of any length, every rule for breaking ties", "why_tests_cant": "all literals", "anchors": ["strictpp/StrictCommon/strict_literals.hpp: operator\"\"_sf, _sd, _sl, _sq, _SF, _SD, _SL, _SQ"]}
{"id": "C91", "title": "Special floating-point values in strict scalars", "statement": "The operators + - * / and unary -, fmas and sqrts on Strict floating-point numbers give the exact result rounded once - the infinity of its sign if that is larger than the largest number - for finite arguments, and NaN or the infinity IEEE 754 prescribes otherwise; the difference of two finite numbers is zero exactly if they are equal and negative exactly if the first is less. Nothing compares with NaN. mins and maxs return the second argument if one is NaN or both are equal (also zeros of different signs); signs(NaN) and signs of both zeros are 0. clamps rejects NaN and inverted bounds in debug builds; in_open and in_closed reject NaN bounds there and are false for a NaN. invs(0) is the infinity of its sign. Exceptions: abss exchanges the zeros, so abss(+0) is -0 and 1/abss(0) is -infinity; within_tol_abs is false for two equal infinities; within_tol_rel is false if the second number is NaN but can be true if only the first one is.", "quantifier": "every floating-point value, every format and every rounding", "why_tests_cant": "special values in every argument position and every build", "anchors": ["strictpp/StrictCommon/strict_val.hpp: operators", "strictpp/StrictCommon/strict_math.hpp: abss, mins, maxs, signs, isnans, isinfs, isfinites", "strictpp/StrictCommon/strict_val_ops.hpp: clamps, in_open, in_closed, invs", "strictpp/Util/error_tools.hpp: within_tol_abs, within_tol_rel, abs_error, rel_error"]}
{"id": "C92", "title": "Special floating-point values in arrays", "statement": "NaN among the elements makes sum, prod, mean, norm1, dot_prod, norm2, their scaled and their compensated versions NaN. has_nan, has_inf and all_finite are exact, NaN fails every all_* test, and A == A holds exactly if A has no NaN. Without NaN sorting works, infinities included; with NaN and two different numbers the comparison is not what std::sort demands. Exceptions: min, max, norm_inf and max_abs_error show NaN only if it comes first, otherwise they pass over it; and an infinite element makes stable_sum, stable_mean, stable_dot_prod and the stable norms NaN, and an overflow of the plain sum makes stable_sum and stable_dot_prod NaN, also where the plain operation gives infinity.", "quantifier": "all arrays, views and expressions of any length, all positions of special values, every format and rounding", "why_tests_cant": "all positions of special values in arrays of all lengths", "anchors": ["strictpp/array_ops.hpp: sum, prod, mean, min, max, norm_inf, norm1, norm2, dot_prod, has_nan, has_inf, all_finite, all_pos, sort_increasing, operator==", "strictpp/array_stable_ops.hpp: stable_sum, stable_dot_prod, stable_prod, semi_stable_sum, stable_norm1, stable_norm2", "strictpp/Util/error_tools.hpp: max_abs_error"]}
{"id": "C93", "title": "A finite result did not overflow", "statement": "If the result of sum, prod, dot_prod, stable_sum, semi_stable_sum, stable_prod, stable_dot_prod, norm1, norm2 or polynomial is finite, or that of mean, norm1_scaled or norm2_scaled of an array whose size is not beyond the largest number, then all elements are finite, nothing overflowed on the way, and the result is what the same operations give without a largest number. So the bounds on rounding errors of sums, inner products and norm1 hold for every finite result: it suffices to look at the result.", "quantifier": "all arrays of any length and any elements, every format and rounding to nearest", "why_tests_cant": "overflow at any point of computations of any length", "anchors": ["strictpp/array_ops.hpp: sum, prod, dot_prod", "strictpp/array_stable_ops.hpp: stable_sum, semi_stable_sum, stable_prod, stable_dot_prod"]}
{"id": "C94", "title": "Settings for printing numbers", "statement": "The number of digits set last is the number of digits printed, for each floating-point type on its own, whatever other settings were changed in between; reset restores 7, 16, 19 and 33 digits and scientific notation. A negative number of digits is rejected in debug builds. Printing several things in a row gives their texts in a row, and the text of a Strict number (decimal stream) does not depend on what was printed before. print changes no setting of std::cout. Exceptions: a number of digits of 2^31 or more is taken modulo 2^32; printing a Strict number on a stream leaves the sign, notation and number of digits set there, so built-in numbers printed later have a plus sign, the notation and the digits of the last Strict one; and integers on a stream set to octal or hexadecimal are printed without sign in that base.", "quantifier": "every sequence of settings, every sequence of things printed and every initial state of the stream", "why_tests_cant": "histories of settings and of output of any length", "anchors": ["strictpp/StrictCommon/strict_IO.hpp: StrictFormat, operator<<, print"]}
{"id": "C95", "title": "Printing and reading quadruple precision", "statement": "A Strict<float128> is printed with a sign, the digits set and, in scientific notation, E and an exponent, rounded to nearest, as long as the text has at most 127 characters: for up to 118 digits in scientific notation. With 35 to 118 digits, a number that is printed and read again is the same number. Reading takes the next word: a decimal number is read as the nearest float128, any other word (infinities, NaN and hexadecimal numbers apart) is an error that leaves a Strict variable unchanged. Reading an array stores all words of the text if they are numbers; a bad word anywhere is an error that leaves the array unchanged. Exceptions: longer texts are cut, so a number of 128 digits in fixed notation is printed as a number at most a tenth as large and from 125 digits on the exponent is lost; reading at the end of a stream sets the variable to zero without an error, unlike for other types; a built-in float128 is overwritten before the word is checked; a number of digits that became negative or is close to 2^31 is undefined behaviour.", "quantifier": "every number, number of digits, text and build", "why_tests_cant": "all numbers and all texts", "anchors": ["strictpp/StrictCommon/strict_IO.hpp: operator>>, operator<< for float128", "strictpp/array_IO.hpp: operator>>"]}
{"id": "C96", "title": "Operators and functions of floating-point arrays", "statement": "For floating-point arrays, views and expressions A op B, A op x and x op A with + - * /, the unary + - and abs, inv, sqrt, two_prod and pow have at every position exactly what the operation gives for the numbers there: the exact result rounded once, or the special value IEEE 754 prescribes. exp, log, sin etc. apply the function of the same name of the standard library to every element and nothing else. A op= B and A op= x write exactly those values and change nothing else. pow_int(A, n), pows_int(x, n) and exps_int(n) use the exponent n if |n| is at most 2^p, with p the number of digits; fast_pow_int(A, n) applies fast_pows_int to every element. Exceptions: a larger exponent is rounded to the floating-point type first, so odd exponents such as 2^p + 1 become even and pow_int(A, n) of a negative number has the wrong sign; abs exchanges the zeros.", "quantifier": "every format, all operands including special values, all arrays, views and expressions and builds", "why_tests_cant": "all operand pairs at all positions of all expression trees", "anchors": ["strictpp/Expr/functors.hpp", "strictpp/Expr/binary.hpp: operator+ etc., pow_prod, two_prod", "strictpp/Expr/unary.hpp: operator-, abs, inv, sqrt, exp, log, sin, pow, pow_int, fast_pow_int", "strictpp/StrictCommon/strict_val_ops.hpp: pows_int, exps_int, invs", "strictpp/derived_base.hpp: operator+= etc."]}
{"id": "C97", "title": "Integer powers by squaring", "statement": "fast_pows_int(x, 0) is 1 for every x, NaN included. If x is not NaN neither is the power, and it is negative exactly if x is negative and n is odd, whatever overflows on the way and however large n is. It is exact if the powers up to x^n are floating-point numbers, in particular for integers with |x|^n at most 2^p. Otherwise its relative error is that of n - 1 roundings, for any n, provided nothing underflows; for |x| >= 1 it suffices that the result is finite, which it is if |x|^n is below the largest number by that error. A negative power is one divided by the positive one, with one rounding more. squares has one rounding and cubes two; for integers both are exact, undefined exactly on signed overflow. Exception: if x^n overflows, x^-n is zero, even where it is a floating-point number.", "quantifier": "every exponent of type long but the smallest, every number and special value, every format and rounding to nearest", "why_tests_cant": "all exponents and all numbers", "anchors": ["strictpp/StrictCommon/strict_val_ops.hpp: fast_pows_int", "strictpp/StrictCommon/strict_math.hpp: squares, cubes"]}
{"id": "C98", "title": "Rounding to integers", "statement": "floors(x) is the largest integer not above x and ceils(x) the smallest not below it, with no rounding, and a number of the same type. NaN, infinities and zeros are returned unchanged, and the sign is kept: ceils(-0.5) is -0. Both are monotone and leave integers alone, floors(x) <= x <= ceils(x), and ceils(x) is -floors(-x).", "quantifier": "every floating-point value of every format", "why_tests_cant": "all numbers, including those beyond the range of integer types", "anchors": ["strictpp/StrictCommon/strict_math.hpp: floors, ceils"]}
{"id": "C99", "title": "When memory runs out", "statement": "For every history of calls on one-dimensional arrays and every way in which requests for memory may be refused: a statement that asks for memory and is refused throws and changes nothing, like an invalid one, and every other valid statement has its full effect. A statement asks at most once, only for a non-empty array that gets new storage; assignments, moves, swaps and a resize to the present size never ask. Nothing leaks and nothing is released twice.", "quantifier": "every program, every number of arrays, every set of refused requests", "why_tests_cant": "allocation failures at every point of every history", "anchors": ["strictpp/array_base1D.hpp: ArrayBase1D, resize, resize_and_assign, insert, remove", "strictpp/ArrayCommon/alignment.hpp"]}
{"id": "C100", "title": "When memory runs out in two dimensions", "statement": "For every history of calls on two-dimensional arrays and every way in which requests for memory may be refused: a statement that asks for memory and is refused throws and changes neither elements nor dimensions, like an invalid one, and every other valid statement has its full effect. A statement asks at most once, only for a non-empty result; assigning values or arrays, moves, swaps and a resize to the present shape never ask, but assigning a list of lists always does unless it is empty, and it may do so even if it is then rejected. Nothing leaks and nothing is released twice.", "quantifier": "every program, every number of arrays, every set of refused requests", "why_tests_cant": "allocation failures at every point of every history", "anchors": ["strictpp/array_base2D.hpp: ArrayBase2D, operator=, resize, resize_and_assign, insert_rows, insert_cols, remove_rows, remove_cols", "strictpp/ArrayCommon/alignment.hpp"]}
{"id": "C101", "title": "Scopes, exceptions and release of storage", "statement": "For every program built from the member functions of one-dimensional arrays, local arrays in nested blocks, throw, try and catch, branches and loops, and for every way in which requests for memory may be refused: the program ends normally, with an exception, or (a rejected move assignment, or a failed check in a build without exceptions) with the process aborted, exactly as the same program on lists, and it is never undefined behaviour. Unless it is aborted, exactly the arrays in scope exist afterwards with exactly the elements of the list program, and at the end of the whole program every block ever allocated has been released exactly once. Arrays that a program does not mention keep their elements, and work on a copy that is moved back at the end has no effect on the array if an exception interrupts it.", "quantifier": "every program of every size and nesting, every allocator, every build", "why_tests_cant": "exceptions and allocation failures at every point of every nesting of blocks, handlers and loops", "anchors": ["strictpp/array_base1D.hpp: ArrayBase1D constructors, ~ArrayBase1D, operator=, swap, resize, resize_and_assign, insert, remove", "strictpp/ArrayCommon/alignment.hpp"]}
{"id": "C102", "title": "Rounding errors of products, means, norms and polynomials", "statement": "With u the unit roundoff of a binary format and no overflow or underflow, for n numbers: prod has a relative error of at most (1+u)^(n-1) - 1; norm1 of at most (1+u)^(n-1) - 1 (also with gradual underflow) and norm1_scaled of at most (1+u)^n - 1; mean an error of at most (1+u)^n - 1 times the mean of the absolute values; norm2 a relative error of at most (1+u)^(n+1) - 1 and norm2_scaled of at most (1+u)^(n+2)/(1-u) - 1 if the square root has a relative error of at most u; polynomial (Horner) an error of at most (1+u)^(2 degree) - 1 times the sum of |a_i| |x|^i; gpolynomial, and polynomial with given powers, of at most (1+u)^(n+k+1) - 1 times the sum of the absolute values of the terms if powers are accurate to k roundings; norm_lp(., q) a relative error of at most (1+u)^(n-1+2k) - 1 if q is a power of two, norm_lp_scaled of at most (1+u)^(n+2)/(1-u) - 1 for such q and k = 1, and for every q norm_lp of at most (1+u)^(n-1+2k) L^(u/q) - 1 if the sum of the powers lies between 1/L and L (with room for its error); this factor is real: norm_lp(., 3) of the single double 2^300 is off by more than 99 u however good the power function is. stable_mean, stable_norm1, stable_norm1_scaled, stable_norm2, stable_norm2_scaled and stable_norm_lp (for powers of two) have errors in which n occurs only in terms of second order in u. (Counts and exponents up to 2^p, which are exact.)", "quantifier": "every list of numbers of every length, every precision, every rounding to nearest, every accurate square root and power function", "why_tests_cant": "the error of every input of every length", "anchors": ["strictpp/array_ops.hpp: prod, mean, norm1, norm1_scaled, norm2, norm2_scaled, norm_lp, norm_lp_scaled, polynomial, gpolynomial", "strictpp/array_stable_ops.hpp: stable_mean, stable_norm1, stable_norm1_scaled, stable_norm2, stable_norm2_scaled, stable_norm_lp"]}
{"id": "C103", "title": "Random expressions", "statement": "An array made from a random expression, or assigned one, holds the next numbers of the expression's generator, in order (row by row); the expression goes on from there, so using it again gives the numbers that follow. e[i] and e(i, j) are the next number whatever the index, and trap in checked builds if it is out of range; assignment to an array of another size traps. semi_random<T>(n, low, high, seed) gives the numbers that filling an array of n elements would give; semi_random<T>(m, n, low, high, seed) gives m n numbers from the seed seed + n, which need not be those of filling an array of that size. With _not0 they are the numbers of the same sequence that are not zero, and the array is made exactly when there are enough of them. Bounds in the wrong order, negative sizes, exactly one size of zero and, for _not0, two zero bounds trap in checked builds.", "quantifier": "every generator, state, size, index, array, seed and pair of bounds", "why_tests_cant": "the numbers of every generator, and sequences of every length", "anchors": ["strictpp/Util/semi_random.hpp: semi_random, semi_random_not0", "strictpp/Util/random.hpp: random, random_not0", "strictpp/Expr/types.hpp: RandUnaryExpr", "strictpp/Expr/unary.hpp: generate_random"]}
{"id": "C104", "title": "Sizes in bytes", "statement": "bytes() of an array, view or expression with n elements of w bytes is n w; if n w is 2^63 or more the call is undefined. kbytes(), mbytes() and gbytes() are that number rounded to double and divided by 2^10, 2^20 and 2^30 without further rounding: exact up to 2^53 bytes, in general within one part in 2^53, and kbytes() = 1024 mbytes() = 1024^2 gbytes() always.", "quantifier": "every object, element size and rounding to nearest", "why_tests_cant": "sizes no test can allocate", "anchors": ["strictpp/derived1D.hpp: bytes, kbytes, mbytes, gbytes", "strictpp/derived2D.hpp: bytes, kbytes, mbytes, gbytes"]}
{"id": "C105", "title": "Comparison with lists", "statement": "equal(A, list) and equal(list, A) say whether A has the shape of the list and no element differs (in the sense of !=) from the one in the list; for exact types, whether the elements are those of the list. A two-dimensional list whose rows differ in length is rejected by a trap in checked builds, not compared.", "quantifier": "every array, view, expression and list", "why_tests_cant": "every shape and all values", "anchors": ["strictpp/derived1D.hpp: equal", "strictpp/derived2D.hpp: equal"]}
{"id": "C106", "title": "The Jacobi example", "statement": "The solver of example 6, for every square system, arithmetic and build, returns the first of the Jacobi iterates number 0 to 100 N that passes the residual test, with its number, or nothing if none does; the system without equations counts as unsolved, and without NDEBUG sizes that do not match end the program. In exact arithmetic, if each diagonal element dominates the rest of its row by a factor 1/rho, iterate k is within rho^k max|x| of the solution x, so the solver returns as soon as that is small enough, and a returned vector with residual R is within R / (delta (1 - rho)) of the solution. The statement that raises the diagonal by twice the row sums reads rows it is changing, but has the effect of using the old row sums, and makes every matrix of nonnegative elements without zero rows dominant with rho = 1/2.", "quantifier": "all systems, arithmetics, tolerances and builds; all iterates", "why_tests_cant": "systems of every size and all values; the number of iterations", "anchors": ["examples/example6.cpp: jacobi, main", "strictpp/Expr/special.hpp: exclude, row_reduce", "strictpp/Expr/binary.hpp: matvec_prod", "strictpp/Util/error_tools.hpp: within_tol_rel"]}
{"id": "C107", "title": "The differential equation example", "statement": "ode_solve of example 5 rejects nonpositive step numbers and widths in checked builds; otherwise it returns nsteps + 1 values, the initial value and then the results of the trapezoidal rule one after the other, in every arithmetic. In exact arithmetic value i is y0 ((1 + h/2)/(1 - h/2))^i, which for 0 < h <= 1 lies between y0 exp(ih) and y0 exp(ih) exp(i h^3 / 9). Rounding changes it by a factor between ((1 - u)^4/(1 + u)^2)^i and ((1 + u)^4/(1 - u)^2)^i.", "quantifier": "all step numbers, step widths and initial values; all roundings to nearest", "why_tests_cant": "all step widths and numbers of steps", "anchors": ["examples/example5.cpp: ode_solve", "strictpp/Expr/special.hpp: irange_m1"]}
{"id": "C108", "title": "Reductions depend on the elements only", "statement": "Two objects with the same elements in the same order (row by row if two-dimensional), be they one- or two-dimensional, arrays, views or expressions, have the same sum, product, mean, extrema, norms, answers to any_of/all_of/none_of and their relatives, compensated sums, products, means and norms, BLAS copy and for_each; pairs of objects of equal extents have the same inner products, tolerance comparisons and errors. The results are identical, not just close, whatever the element type does (NaN, overflow, rounding), and if one call fails the other fails in the same way. In particular an object and its view1D() agree, and if the largest or smallest element found in one dimension is number k, in two dimensions with c columns it is found in row k / c and column k % c.", "quantifier": "all objects, element types, element operations, exponents, builds", "why_tests_cant": "all shapes and element values; the repository's own test compares most of them only within a tolerance", "anchors": ["strictpp/array_ops.hpp: sum, prod, mean, min, max, min_index, max_index, any_of, all_of, none_of, dot_prod, norm1, norm2, norm_inf, norm_lp, blas_array, for_each", "strictpp/array_stable_ops.hpp", "strictpp/Util/error_tools.hpp: within_tol_abs, within_tol_rel, max_abs_error, max_rel_error", "tests/array_1Dvs2D.cpp"]}
{"id": "C109", "title": "Laws of slicing", "statement": "Chains of slices are equal, element by element, to the slices they should be equal to: every k-th of every j-th element is every jk-th element, so A(even)(even) is A(skipN(4)); reversing twice gives the object itself; the first j of the first k elements are the first j (likewise the last); the first k elements of the reversed object are its last k elements reversed and vice versa; odd is even of what remains without the first element; a seqN of a seqN is a seqN; seq(f, l) is seqN(f, l - f + 1); the complement of the complement of increasing indexes is the slice with these indexes. Both sides are accepted, in every build.", "quantifier": "all one-dimensional objects (arrays, slices, expressions), slice parameters, sizes, builds", "why_tests_cant": "all sizes and parameters, including empty objects", "anchors": ["strictpp/slice.hpp", "strictpp/derived1D.hpp: operator()", "examples/example2.cpp: main"]}
{"id": "C110", "title": "Idioms of the examples", "statement": "A.remove(in_closed_range(A, low, high).get_slice()) keeps exactly the elements outside the interval, in their order (not-a-number is kept); likewise for open intervals and any condition; bounds in the wrong order are rejected and nothing changes. x = merge(y[last], exclude(y, last)) is the rotation of y, for x other than y; an empty y or an x of another length is rejected and nothing changes; done in place it is not the rotation: every element becomes the former last one. B(odd) = -B(even) + c keeps the elements at even positions and sets each one after them to -B[i] + c if the length is even; an odd length is rejected and nothing changes.", "quantifier": "all arrays, conditions, bounds, element types, builds", "why_tests_cant": "all sizes, selections of elements and element values", "anchors": ["examples/example1.cpp: main", "examples/example2.cpp: main", "examples/example3.cpp: main", "strictpp/slicearray_base1D.hpp: get_slice", "strictpp/array_base1D.hpp: remove", "strictpp/array_ops.hpp: in_open_range, in_closed_range, in_cond_range"]}
{"id": "C111", "title": "Laws of views and expressions", "statement": "Expressions that should be equal are both accepted and equal element by element, whatever the arrays come to contain. A view of any kind (slice, row, column, diagonal, block, reshape) of an element-wise operation is the operation on the views; transpose and merge commute with element-wise operations. The rows of transpose(A) are the columns of A, its k-th diagonal is the (-k)-th of A, transposed slices and blocks are slices and blocks of the transpose, transposing side by side matrices puts their transposes on top of each other, row reductions of the transpose are column reductions. Selecting rows and then columns is the two-dimensional slice (if some row is selected); a block of a block is the block at the sum of the corners; a row of a block is a slice of a row. The first and last elements of merge(x, y) are x and y, its reverse is the merge of the reverses in opposite order, exclude is the merge of what comes before and after, append is a merge with a constant. Slicing the row reductions or the matrix-vector product is reducing or multiplying the selected rows; the product with stacked matrices is the merge of the products. Lines of broadcasts are the vector; the identity is symmetric with unit vectors as lines.", "quantifier": "all expressions and array contents (present and future), views, element operations (also failing ones), sizes, builds", "why_tests_cant": "every pair of expression shapes, all sizes including empty operands, elements that fail", "anchors": ["strictpp/derived1D.hpp: operator()", "strictpp/derived2D.hpp: operator(), row, col, block, diag", "strictpp/Expr/special.hpp: transpose, merge, merge_horizontal, merge_vertical, exclude, row_reduce, col_reduce, row_broadcast, identity, e_unit", "strictpp/Expr/expr.hpp"]}
{"id": "C112", "title": "Loops over index ranges", "statement": "A loop over irange(A), irange_row(A) or irange_col(A) runs its body once for every index 0, 1, 2, ... of an element, row or column of A, in order; the _m1 forms leave out the last one. The number of iterations is fixed when the loop starts: later changes of A do not affect it. The loop over irange_m1(A) that reads A[i] and A[i+1] sees every pair of neighbours once and accesses nothing outside A. The _m1 forms of an empty object are rejected in checked builds; in builds without checks the loop does not stop by itself.", "quantifier": "all arrays and expressions, sizes, loop bodies (also failing or resizing ones), builds", "why_tests_cant": "loops of every length, bodies that change the array, empty objects", "anchors": ["strictpp/Expr/special.hpp: irange, irange_m1, irange_row, irange_row_m1, irange_col, irange_col_m1", "strictpp/derived1D.hpp: size_m1"]}
{"id": "C113", "title": "Repetitions in semi-random numbers", "statement": "Semi-random numbers of every type and range repeat: from the third on, a number equals the one 62500 draws earlier (31250 draws for booleans and integers over {0, 1}), so in an array filled by semi_random elements i and i + 62500 are equal. Seeds that differ by a multiple of 25 give the same numbers (while seed plus clock digit is at most 5368), and so do seeds and array sizes whose sums differ by a multiple of 25: the shorter array receives the first numbers of the longer one. semi_random(A, B, ...) fills the arrays one after the other with numbers that depend on nothing but the size: arrays of the same size become equal.", "quantifier": "all element types, ranges, generator states, seeds, array sizes, views, numbers of arrays", "why_tests_cant": "sequences of more than 62500 draws, all seeds and sizes", "anchors": ["strictpp/Util/semi_random.hpp: semi_rands, semi_random, semi_random_not0", "strictpp/Util/random.hpp: random_not0"]}
{"id": "C114", "title": "Algebraic laws of reductions", "statement": "Whenever the calls return: sum(A + B) = sum(A) + sum(B), sum(A - B) = sum(A) - sum(B), sum(c * A) = c * sum(A), sum(A + c) = sum(A) + size * c; the sum of merge, append, prepend, merge_horizontal and merge_vertical is the sum of the sums; transposing, reshaping and permuting slices keep the sum, and complementary slices (even/odd, first/last, positions/complement) have sums that add up; sum(row_reduce(A, sum)) = sum(A) = sum(col_reduce(A, sum)); dot_prod(A, B) = sum(A * B) = dot_prod(B, A) is linear; dot_prod with a unit vector is an element; matvec_prod is linear, the identity is neutral and the transposed matrix is the adjoint; sum(tensor_prod(x, y)) = sum(x) * sum(y); sums of constants, sequences, unit vectors and identities have their closed forms; prod is multiplicative for objects with elements (prod of an object without elements is 0). These hold exactly for exact arithmetic and signed integers, and modulo 2^bits for unsigned integers.", "quantifier": "all expressions, sizes, contents of the arrays, number types whose results are those of a ring", "why_tests_cant": "all contents and sizes, all expressions as operands", "anchors": ["strictpp/array_ops.hpp: sum, prod, dot_prod", "strictpp/Expr/special.hpp: row_reduce, col_reduce", "strictpp/Expr/binary.hpp: matvec_prod, tensor_prod"]}
{"id": "C115", "title": "Norms are norms", "statement": "Over exact real numbers norm_inf, norm1, norm2 and norm_lp(., p) of every expression whose elements have values return exactly one number, which is not negative and is zero only if all elements are; norm(c * A) = |c| norm(A); norm(A + B) <= norm(A) + norm(B); norm(A - B) is a distance with |norm(A) - norm(B)| <= norm(A - B); |dot_prod(A, B)| <= norm2(A) norm2(B) and <= norm1(A) norm_inf(B), dot_prod(A, A) = norm2(A)^2; norm_inf <= norm_lp <= norm1, norm_lp <= size^(1/p) norm_inf, norm1 <= sqrt(size) norm2, norm_lp(., 1) = norm1, norm_lp(., 2) = norm2; smaller elements give smaller norms; transposing and permuting keep the norm; norms of merged arrays combine (maximum, sum, p-th powers); the scaled norms satisfy norm1_scaled <= norm2_scaled <= norm_inf, norm_lp_scaled <= norm_inf, and are |c| for a constant object.", "quantifier": "all expressions, sizes, contents, exponents and builds", "why_tests_cant": "all real contents and all sizes; inequalities over infinitely many inputs", "anchors": ["strictpp/array_ops.hpp: norm_inf, norm1, norm2, norm_lp, norm1_scaled, norm2_scaled, norm_lp_scaled, dot_prod"]}
{"id": "C116", "title": "Timers", "statement": "A timer measures the time since it was made or last restarted, whatever was read from it before; wall_time() is the difference of the two clock readings in seconds with a relative error of at most 2^-53 up to 2^53 nanoseconds and 2^-52 + 2^-106 above, it has the right sign (so it is negative if the system clock was set back meanwhile), and successive readings do not decrease while the clock does not go back; STRICT_TIME(a) writes one line with the text of a and the seconds with five significant digits, and nothing if a throws.", "quantifier": "all clock readings, all histories of restarts and readings", "why_tests_cant": "the clock belongs to the environment: a test cannot set it, nor cover all histories", "anchors": ["strictpp/Util/timer.hpp: timer, wall_time, restart, STRICT_TIME"]}
{"id": "C117", "title": "Machine epsilon", "statement": "1 + epsilon<T> is the smallest number of the type above 1; adding to 1 less than epsilon/2 gives 1 and adding more gives at least 1 + epsilon; epsilon/2 bounds the relative error of every operation whose result does not underflow.", "quantifier": "all precisions and all numbers", "why_tests_cant": "all real numbers that are rounded", "anchors": ["strictpp/StrictCommon/constants.hpp: epsilon"]}
{"id": "C118", "title": "Laws of statements", "statement": "A statement gives values to its elements one after the other in row-major order, each computed from the state the previous writes left, also when it reads what it writes. So `A op= B` does exactly what `A = A op B` does and `A op= x` what `A = A op x` does, for every aliasing of A and B; `A = A` changes nothing, also for views that select elements repeatedly; an assignment whose elements are all overwritten by the next statement, which does not read them, can be left out; statements that write different arrays and do not read each other's can be run in any order.", "quantifier": "all states, arrays, views, expressions, operators and programs", "why_tests_cant": "the elements, views, aliasing and the order of statements are arbitrary", "anchors": ["strictpp/ArrayCommon/algorithm.hpp: copy, apply0", "strictpp/derived_base.hpp: operator+= and others", "strictpp/slicearray_base1D.hpp: operator=", "strictpp/slicearray_base2D.hpp: operator="]}
{"id": "C119", "title": "Rounded reductions respect order", "statement": "In floating point, with any rounding to nearest: sum and mean are monotone in the elements; a sum of numbers that are not negative is at least each of them, and appending such numbers does not decrease it; dot_prod of elements that are not negative is monotone, dot_prod(A, A) is not negative; norm_inf is exactly the largest magnitude; norm1 and norm2 are monotone in the magnitudes and at least norm_inf; norm2 of one number is exactly its magnitude. The mean of two numbers lies between them, but the mean of more need not lie between the smallest and the largest.", "quantifier": "all arrays, sizes, precisions, exponent ranges and ways to break ties", "why_tests_cant": "rounding happens after every operation and sizes and values are arbitrary; tests compare against tolerances", "anchors": ["strictpp/array_ops.hpp: sum, mean, dot_prod, norm_inf, norm1, norm2"]}
{"id": "C120", "title": "Backward stability", "statement": "The computed sum, mean and dot_prod, and every element of matvec_prod, are the exact results for slightly different operands: each element is changed by a relative error of at most n roundings (n - 1 for sum). Element k of matvec_prod(A, x) is exactly dot_prod(A.row(k), x), although the two are computed by different loops.", "quantifier": "all arrays, expressions, sizes and precisions", "why_tests_cant": "rounding happens after every operation and sizes and values are arbitrary", "anchors": ["strictpp/array_ops.hpp: sum, mean, dot_prod", "strictpp/Expr/binary.hpp: matvec_prod"]}
{"id": "C121", "title": "Statements in several threads", "statement": "Several threads execute assignments, compound assignments and fills at the same time, one element at a time and interleaved in any way, and the elements a value depends on may be read at different moments. If no thread writes an element that another thread reads or writes, every execution is finite, can be completed, and ends with every thread's outcome and elements as if the thread had been alone; if all succeed, the contents are those left by the threads one after the other. This holds in particular for threads that use different arrays and for threads that each work on their own row of a matrix. Without the condition the contents can depend on the schedule.", "quantifier": "all numbers of threads, statements, views, contents and schedules", "why_tests_cant": "the number of interleavings is exponential and tests see a few of them", "anchors": ["strictpp/ArrayCommon/algorithm.hpp: copy", "strictpp/derived1D.hpp: operator=", "strictpp/derived2D.hpp: operator=", "strictpp/derived_base.hpp: operator+="]}
{"id": "C122", "title": "Equal expressions can be replaced", "statement": "Expressions that have equal sizes and elements for all contents of the arrays are interchangeable: replacing any parts of an accepted expression by equal ones gives an accepted expression with equal elements, and a statement whose right side is so changed has the same outcome and effect, also when it assigns to an array it reads. Equality of expressions is reflexive, symmetric and transitive.", "quantifier": "all expressions, all sets of replaced parts, all contents, all statements", "why_tests_cant": "expressions nest without bound", "anchors": ["strictpp/Expr/expr.hpp: UnaryExpr, BinaryExpr", "strictpp/derived1D.hpp: operator="]}
{"id": "C123", "title": "No implicit conversions between numbers", "statement": "An expression on strict and built-in numbers, of any depth, compiles exactly by a short list of rules: an operator on strict numbers needs operands of the same type and gives that type, comparisons a strict boolean; a strict number and a built-in one cannot be mixed; initialization, assignment, compound assignment, parameters and return values need the same type, and only strict_cast, builtin_cast, static_cast to the same type and val change a type. The exceptions are sums and differences of positions, which convert int to long, and && and || of a strict boolean with a built-in number, which convert the number to bool and give a built-in bool. So the value of an expression whose operators have only strict operands does not depend on any implicit conversion, and that of one without operators between two built-in numbers depends only on these two.", "quantifier": "all expressions of any depth, all operators, all pairs of operand types including numeric types the library does not know, all meanings of operators and conversions", "why_tests_cant": "tests compile a finite set of expressions, and a test that something does not compile has to be written separately for every combination", "anchors": ["strictpp/StrictCommon/strict_val.hpp: Strict", "strictpp/StrictCommon/strict_val_ops.hpp: operators", "strictpp/StrictCommon/auxiliary_types.hpp: ImplicitInt, ImplicitIntStatic, Last", "strictpp/StrictCommon/strict_val.hpp: strict_cast, builtin_cast"]}
{"id": "C124", "title": "Algorithms on iterators", "statement": "Any algorithm that works through begin() and end() of an array or view whose elements are at different places does to its elements exactly what it does to a plain array with these contents: same result, same final contents, and nothing else is changed; through rbegin() and rend() it sees and leaves the elements in the opposite order. An access outside the range traps in checked builds at that moment, with the earlier assignments done. Algorithms that only read do the same on arrays, views and expressions of every kind. So std::accumulate folds the elements in order, std::reverse reverses them, every correct std::sort sorts views, and shuffle leaves the same elements in another order, where every order of different elements results from exactly one sequence of random numbers. The iterators of arrays lead to consecutive elements, but the address of end() is not available in checked builds.", "quantifier": "all algorithms made of iterator operations, all arrays, views and expressions, all contents, all random numbers", "why_tests_cant": "algorithms are arbitrary programs and views nest without bound", "anchors": ["strictpp/iterator.hpp: Iterator, ConstIterator", "strictpp/array_ops.hpp: shuffle, sort_increasing, sort_decreasing", "strictpp/derived1D.hpp: begin, end, rbegin, rend"]}
{"id": "C125", "title": "Columns of printed tables", "statement": "In fixed notation with P digits after the point, the fields of a printed 2D floating-point array are padded to P + 2 characters and as many as the largest absolute value has digits before the point. All fields are then equally wide, and all lines equally long, unless rounding gives the largest absolute value one digit more; in that case exactly the elements that round up so stick out by one character. This holds also for logarithms that are inaccurate, as long as that of 10^k and more is not below k. In scientific notation fields are not padded: numbers between 10^-99 and 10^99 and zero have P + 7 characters, much larger and smaller ones more. Printing a table in fixed notation whose first element is NaN, or which contains an infinity after a first element that is not NaN, is undefined behaviour. Tables of integers are aligned for every such logarithm.", "quantifier": "all tables of finite numbers, precisions and logarithm functions", "why_tests_cant": "the number of tables, precisions and rounding cases is unbounded", "anchors": ["strictpp/array_IO.hpp: count_digit, floating_spacing, max_if_needed, set_width_if_needed, ostream_base_print"]}
{"id": "C126", "title": "Printing random expressions", "statement": "Printing a random expression shows what an array made from it would show: every number is drawn once, in the order of the elements, row by row; the numbers drawn afterwards are those that follow, so printing twice shows different numbers. Printing ends if and only if making the array does. The fields of a printed 2D random expression are as wide as the larger of the absolute values of its bounds requires, so that all fields are equally wide whatever numbers are drawn (for floating-point numbers unless that bound is rounded to one digit more); if a bound is the most negative number of its type, printing is undefined behaviour.", "quantifier": "all generators, bounds, sizes, formats and logarithm functions", "why_tests_cant": "the number of generators and of sequences of drawn numbers is unbounded", "anchors": ["strictpp/array_IO.hpp: max_if_needed, set_width_if_needed, ostream_base_print", "strictpp/Expr/types.hpp: RandUnaryExpr", "strictpp/Util/semi_random.hpp: semi_random"]}
{"id": "C127", "title": "Arrays made from two iterators", "statement": "Array1D A(b, e) has the elements from b up to, but not including, e, in that order; with reverse iterators they are in the opposite order, so that A(x.begin(), x.end()) is a copy of x and A(x.rbegin(), x.rend()) is x reversed. In checked builds the constructor rejects a pair in the wrong order, a pair that spans elements that do not exist, iterators of different objects and iterators that point to nothing; two equal iterators always give an empty array. FixedArray1D<T, N> A(b, e) behaves the same and also rejects pairs that are not N apart. Without the checks a pair in the wrong order is undefined behaviour; a fixed array with too few elements keeps zeros at the end, and with too many it is written past its end.", "quantifier": "all objects, elements and pairs of iterator positions", "why_tests_cant": "the number of pairs of positions and of objects is unbounded", "anchors": ["strictpp/array_base1D.hpp: ArrayBase1D(b, e)", "strictpp/fixed_array_base1D.hpp: FixedArrayBase1D(b, e)", "strictpp/ArrayCommon/algorithm.hpp: copy", "strictpp/iterator.hpp: LinearIteratorType"]}
{"id": "C128", "title": "Programs that mix arrays of one and two dimensions", "statement": "A program with local Array1D and Array2D objects in nested blocks, assignments, insertions, removals and resizings of both kinds, steps whose arguments depend on the dimensions and elements of any array, try/catch and loops behaves as the same program on lists and matrices, whatever requests for memory are refused: it ends the same way, and unless the process was aborted all arrays in scope have exactly the dimensions and elements of the specification. No such program is undefined behaviour; at its end no array is left and every block of memory has been released exactly once. Arrays a program does not mention keep their values, and working on a local copy that is moved back with resize_and_assign leaves an Array2D as it was if an exception is thrown.", "quantifier": "all programs of any size and nesting, all element values, all sets of refused requests, all builds", "why_tests_cant": "the number of programs, of nestings of blocks of both kinds and of patterns of refused requests is unbounded", "anchors": ["strictpp/array_base1D.hpp: ArrayBase1D", "strictpp/array_base2D.hpp: ArrayBase2D constructors, destructor, member functions", "strictpp/fixed_array_base1D.hpp: FixedArrayBase1D(FixedArrayBase1D&&)"]}
{"id": "C129", "title": "Views and expressions kept in variables", "statement": "A view or expression kept in a variable while the arrays are changed: as long as the arrays keep their sizes it is the same list or matrix as one made anew, and changes of any kind to arrays it does not mention make no difference. If arrays it mentions are resized or replaced, a view keeps the size and the element positions it had when it was made: a slice of a vector keeps its indices, rows, columns, diagonals and reshaped views of a matrix keep the numbers of the elements in row-major order, blocks and two-dimensional slices keep rows and columns. Reading and assigning a value reach exactly these elements of the current arrays. The subscript check uses the size of the view, so an element that does not exist any more is not detected in any build: the access is undefined. A kept A + B has the current size of A and the sizes are not compared again; a kept A + x has the current size of A, a kept x + A the size A had when it was made.", "quantifier": "all arrays before and after, all views of views of any depth, all expressions, all builds", "why_tests_cant": "the number of views, of their nestings and of changes to the arrays between making and using the view is unbounded", "anchors": ["strictpp/slicearray_base1D.hpp: SliceArrayBase1D", "strictpp/slicearray_base2D.hpp: SliceArrayBase2D", "strictpp/attach2D.hpp: strict_convert_slice2D", "strictpp/derived2D.hpp: row, col, diag, view1D, block", "strictpp/Expr/types.hpp: BinaryExpr", "strictpp/Expr/binary.hpp: operators with a value"]}
{"id": "C130", "title": "Programs that mix expressions, views and changes of size", "statement": "A program made of assignments to arrays and views and to their elements, member functions that change sizes, member functions whose operand is an expression or view (resize_and_assign, insert, insert_rows, insert_cols, insert_row, insert_col with front and back variants; the operand may read the array that is changed, except for the first row or column of an empty two-dimensional array, where the result then is wrong), conditions and loops that depend on the contents, and try blocks does what simple rules about lists and matrices say: it ends in the same way and with the same contents of all arrays. In a checked build an invalid statement is rejected, leaves all arrays as they are and goes to the nearest handler when exceptions are enabled; the program has no undefined behaviour. A program without invalid statements does the same in every build. Arrays no executed statement changes keep their contents, and two-dimensional arrays stay rectangular.", "quantifier": "all programs of any length and nesting with loops of any number of passes, all initial arrays, all operations on elements, all builds", "why_tests_cant": "the number of statements, of passes through loops and of states in which a statement is executed is unbounded", "anchors": ["strictpp/array_base1D.hpp: resize_and_assign, insert, insert_front, insert_back", "strictpp/array_base2D.hpp: resize_and_assign, insert_rows, insert_cols and variants", "strictpp/Expr/types.hpp: expressions", "strictpp/slicearray_base1D.hpp: SliceArrayBase1D", "strictpp/slicearray_base2D.hpp: SliceArrayBase2D"]}
{"id": "C131", "title": "Sorting does not depend on the initial order", "statement": "What sort_increasing and sort_decreasing leave in an array or a view of distinct elements depends on the multiset of its elements only: the result is the same for every initial order, every implementation of std::sort and every build. Sorting what is in order already changes nothing; sorting after shuffle, after sort_decreasing or twice gives what sorting once gives; sort_decreasing leaves the opposite order of sort_increasing; and after sort_increasing element k is the one with at most k smaller and more than k not greater elements, so that the first is the minimum, the last the maximum and the middle one the median.", "quantifier": "all totally ordered element types, all arrays and views of one or two dimensions without repeated elements, all contents, all implementations of std::sort, all random numbers of shuffle, all builds", "why_tests_cant": "the orders of the elements, the implementations of std::sort and the sequences of random numbers cannot be enumerated", "anchors": ["strictpp/array_ops.hpp: sort_increasing, sort_decreasing, shuffle"]}
{"id": "C132", "title": "Programs steered by numbers and conditions computed from arrays", "statement": "A program that computes numbers from arrays and expressions (an element, sum, prod, mean, min, max, norm1, norm2, their scaled versions, norm_inf, dot_prod, polynomial), decides on conditions computed from them (comparisons, ==, any_of, all_of, and, or, not), repeats with while, and handles exceptions, does what the same program on lists and matrices does: same numbers, same decisions, same contents of all arrays, same way to end. Requests that are invalid, such as dot_prod of operands of different sizes, are rejected in a checked build and change nothing; programs without invalid requests do the same in every build. A while loop whose turns decrease a natural number ends, what its turns preserve holds afterwards and its condition is then false; a loop whose condition stays true does not end. In floating point while(x > tol), for a number x computed from arrays, ends only when x is at most tol or NaN, and while(!(x <= tol)) only when x is at most tol. Arrays no statement changes are unchanged.", "quantifier": "all programs of this kind, all expressions and views, all sizes and contents, any number of turns, all builds", "why_tests_cant": "the programs, the contents and the numbers of turns of a loop cannot be enumerated", "anchors": ["strictpp/array_ops.hpp: sum, prod, mean, min, max, norm1, norm2, norm_inf, dot_prod, polynomial, any_of, all_of", "strictpp/ArrayCommon/array_auxiliary.hpp: operator==", "strictpp/derived1D.hpp: operator[]", "strictpp/derived2D.hpp: operator()", "strictpp/StrictCommon/strict_val.hpp: comparisons and StrictBool"]}
{"id": "C133", "title": "What a rejection says", "statement": "A check that fails throws, aborts or does nothing according to the macros of the build, and its condition is evaluated exactly in builds that keep it. A thrown exception says what was rejected: division and remainder by 0, the first negative operand of a shift, a position outside an array (operator[], operator(), at), a file that cannot be opened and input that is not a number are named, each exactly when that is the case, followed by file, function, line and condition of the check; two rejections with different reasons or at different places never have the same text. print_config_info prints different texts for different configurations.", "quantifier": "all integers of all types, all arrays, positions, files and builds", "why_tests_cant": "operands, positions and builds cannot be enumerated", "anchors": ["strictpp/StrictCommon/error.hpp: ASSERT_STRICT_ALWAYS_MSG, ASSERT_STRICT_DEBUG_MSG, trace_err, StrictException", "strictpp/StrictCommon/config.hpp: print_config_info", "strictpp/StrictCommon/strict_val.hpp: operator/, operator%, operator<<, operator>>", "strictpp/derived1D.hpp: operator[], at", "strictpp/derived2D.hpp: operator(), at", "strictpp/array_IO.hpp: read_from_file"]}
{"id": "C134", "title": "Statements that may be replaced by each other", "statement": "Removing and inserting in place does what an expression of the old array says: A.remove is resize_and_assign of exclude or of the complement slice, removing at an end is the slice lastN or firstN, A.insert(pos, e) is the merge of A(firstN{pos}), e and A(lastN{A.size() - pos}), also if e reads A, and the same for rows and columns of two-dimensional arrays with merge_vertical and merge_horizontal; insert_row and insert_col insert the operand viewed as a matrix with one row or column. The two statements leave the same arrays in every build, or both are rejected by every build with checks and change nothing. They differ only for nothing: removing 0 elements and inserting an operand without elements into a two-dimensional array are rejected.", "quantifier": "all arrays, positions, counts, index lists and operand expressions, valid or not, and all builds", "why_tests_cant": "the tests compare the two sides for a few arrays and positions", "anchors": ["tests/array1D.cpp: run_remove, run_insert", "tests/array2D.cpp: run_remove_rows, run_insert_rows, run_insert_row", "strictpp/array_base1D.hpp: remove, insert, resize_and_assign", "strictpp/array_base2D.hpp: remove_rows, remove_cols, insert_rows, insert_cols, insert_row, insert_col"]}
{"id": "C135", "title": "Comparisons with a tolerance on floating-point numbers and the error functions agree", "statement": "For floating-point numbers with rounding, overflow, NaN and infinities: within_tol_abs does not depend on the order of its operands, within_tol_rel neither on finite numbers; both accept a finite number and itself and accept more for larger tolerances. within_tol_abs accepts all pairs whose exact distance is at most the tolerance and rejects all pairs whose exact distance is at least some floating-point number above it. max_abs_error is at most a tolerance exactly if within_tol_abs accepts all pairs whose difference is not NaN, and the array version of within_tol_abs agrees with it if no difference is NaN. max_rel_error does not exist exactly if some rel_error does not, and otherwise bounds all that are not NaN; if it exists and is at most a finite tolerance, within_tol_rel accepts the arrays of finite numbers, but not conversely.", "quantifier": "all floating-point formats, numbers, tolerances, arrays, slices and expressions and all builds", "why_tests_cant": "the tests compare a few numbers with the default tolerances; how the functions are related, and where rounding matters, depends on all of them", "anchors": ["strictpp/Util/error_tools.hpp: within_tol_abs, within_tol_rel, abs_error, rel_error, max_abs_error, max_rel_error", "strictpp/array_ops.hpp: norm_inf, has_zero"]}
{"id": "C136", "title": "What the default tolerance accepts and rejects", "statement": "For a floating-point number of magnitude at most 1: without an explicit tolerance, within_tol_abs and max_abs_error accept the number plus up to 99 epsilons and reject the number plus 102 or more; within_tol_rel accepts the number enlarged by a relative amount of 1 to 99 epsilons and rejects it for 102 or more, unless its magnitude is at most the default tolerance, below which numbers count as zero. So the randomized assertions of tests/error_tools.cpp on these functions hold for all numbers they may draw (those on rejection in within_tol_rel: unless all numbers drawn count as zero).", "quantifier": "all floating-point formats with at least 16 digits, all numbers of magnitude at most 1, all multiples of epsilon up to 1, all arrays of such numbers and all builds", "why_tests_cant": "the tests draw 1000 random numbers and use 10 and 1000 epsilons", "anchors": ["strictpp/Util/error_tools.hpp: DefaultTol, within_tol_abs, within_tol_rel, max_abs_error", "strictpp/StrictCommon/constants.hpp: epsilon", "tests/error_tools.cpp: run_within_tol_abs, run_within_tol_rel, run_abs_error"]}
{"id": "C137", "title": "Rounding errors with gradual underflow", "statement": "In binary floating point with round to nearest and gradual underflow, for arrays of n elements: dot_prod differs from the exact inner product by at most n roundings relative to the sum of the absolute products plus half of the least positive number for each product; stable_dot_prod by one rounding of the result plus terms of second order plus about half of the least positive number for each product; polynomial of degree m by at most 2m roundings relative to the polynomial of the absolute values plus half of the least positive number times 1 + |x| + ... + |x|^(m-1); mean by at most n roundings relative to the mean of the absolute values plus half of the least positive number. With IEEE numbers the bounds hold whenever the result is finite. Without the additional terms they are false: the inner product of a number whose square is below half of the least positive number with itself is 0, also when it is computed by stable_dot_prod.", "quantifier": "every precision, least exponent, array and point of evaluation (representable coefficients), every rule for ties", "why_tests_cant": "small numbers are rare in random tests; all sizes and values", "anchors": ["strictpp/array_ops.hpp: dot_prod, mean, polynomial", "strictpp/array_stable_ops.hpp: stable_dot_prod"]}
{"id": "C138", "title": "The accuracy experiment of the examples", "statement": "The program that measures relative errors of polynomial and stable_polynomial in a narrow floating-point type against polynomial in a wider type: whatever numbers are drawn, it prints the greatest of zero and all measured errors and their average, and it throws as soon as one of the errors does not exist. In binary floating point with round to nearest, if the reference is accurate enough to be known up to B, smaller than the absolute value P of the exact result, a measured error lies between (1-w)^2 (e-B)/(P+B) and (1+w)^2 (e+B)/(P-B), where e is the true absolute error and w the rounding unit of the wide type; e itself is bounded by 2m roundings relative to the polynomial of the absolute values for polynomial of degree m, and by one rounding of the result plus terms of second order for stable_polynomial. An error exists unless the computed value is zero. In exact arithmetic all errors are zero. A NaN among the errors is replaced by the next error in the maximum.", "quantifier": "every list of draws, every number of coefficients up to 2^31, every pair of precisions, every rule for ties", "why_tests_cant": "the program itself is a random test: it shows errors for some draws, not what the printed numbers say about the true errors", "anchors": ["examples/example4.cpp: main", "strictpp/array_ops.hpp: polynomial", "strictpp/array_stable_ops.hpp: stable_polynomial", "strictpp/Util/error_tools.hpp: rel_error"]}
{"id": "C139", "title": "Rounding errors of expressions", "statement": "Take any expression of floating-point arrays made of sums, differences, products, signs, absolute values, numbers as operands, division by a number, products of matrices and vectors, outer products, and everything that only rearranges elements (views, slices, merging, inserting, removing, broadcasting, transposing). In binary floating point with round to nearest and no overflow or underflow, every element of the expression, and of the array it is evaluated to, differs from the same element in exact arithmetic by at most (1+u)^k - 1 times the same expression of magnitudes, where u is the rounding unit and k the number of roundings along the expression: a sum has the larger number of its operands and one more, a product both and one more, a product of a matrix with n columns and a vector n more. An expression without signs and differences, of arrays without negative elements, is that accurate relative to the exact element. An expression that only rearranges elements or changes signs is exact.", "quantifier": "every expression of any depth, all sizes, all contents, every precision, every rule for ties", "why_tests_cant": "tests look at a few expressions and a few numbers; the bound speaks of all expressions, and floating-point errors depend on the data", "anchors": ["strictpp/Expr/types.hpp: BinaryExpr", "strictpp/Expr/binary.hpp: operator+, operator-, operator*, matvec_prod, tensor_prod", "strictpp/Expr/unary.hpp: operator-, abs", "strictpp/Expr/special.hpp"]}
{"id": "C140", "title": "Errors and overflow of expressions in IEEE arithmetic", "statement": "Take any expression of floating-point arrays made of sums, differences, products, signs, absolute values, numbers as operands, division by a number, products of matrices and vectors, outer products, and everything that only rearranges elements. The arrays may hold any values of the format, also infinities, NaN and subnormal numbers. Evaluate the same expression with bounds instead of numbers: a magnitude, an error and the largest magnitude computed so far, where every operation adds half a unit in the last place and products and quotients add half the smallest number. Then every element of the expression, and of the array it is evaluated to, that is finite differs from the same element in exact arithmetic by at most the error so found. If the arrays are finite, no divisor is zero and the largest magnitude so found is within the largest number of the format, then nothing overflows and the element is finite.", "quantifier": "every expression of any depth, all sizes, all contents including special values, every binary format, every rule for ties", "why_tests_cant": "tests look at a few expressions and a few numbers; overflow, underflow and cancellation happen only for particular data", "anchors": ["strictpp/Expr/types.hpp: BinaryExpr", "strictpp/Expr/binary.hpp: operator+, operator-, operator*, matvec_prod, tensor_prod", "strictpp/Expr/unary.hpp: operator-, abs", "strictpp/Expr/special.hpp", "strictpp/StrictCommon/strict_val.hpp: operator+, operator-, operator*, operator/"]}
{"id": "C141", "title": "Contraction of products and sums by the compiler", "statement": "A compiler may compute a product and the sum or difference it goes into with a single rounding. For every expression as in C140, whichever products are fused into sums and differences, independently in every element: an element that is finite satisfies the error bound of C140; if the bounds rule out overflow then every such computation is finite, and any two of them differ by at most twice the error. The same holds for dot_prod and polynomial with the bounds of C137, and for dot_prod a bound on the sum of the magnitudes of the products rules out overflow. The difference can be seen: there are a format and an array A with A * A - A * A zero without contraction and not zero with it. For elements that are not NaN the sum of squares in norm2 is never NaN or negative, whatever is fused, so norm2 is not NaN; the square root of x * x - x * x, zero without contraction, may be NaN with it.", "quantifier": "every expression of any depth, all sizes and contents, every binary format, every choice of products to fuse in every element", "why_tests_cant": "a test runs one build with one compiler; the choice of what to fuse is made by the compiler and changes with flags and processors", "anchors": ["strictpp/Expr/types.hpp: BinaryExpr", "strictpp/Expr/binary.hpp: operator+, operator-, operator*, matvec_prod, tensor_prod", "strictpp/StrictCommon/strict_val.hpp: operator+, operator-, operator*", "strictpp/array_ops.hpp: dot_prod, norm2, polynomial", "tests/CMakeLists.txt: -march=native", "benchmarks/CMakeLists.txt: -march=native"]}
