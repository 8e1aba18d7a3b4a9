# Formal model of strictpp: design

## 1. The code and the model

strictpp is a header-only C++20 library: strict scalars, owning 1D and 2D arrays, slices and views, lazy
expressions, reductions, compensated arithmetic, iterators, stream input and output, and generators. The model
transcribes it function by function into total Lean functions. Every definition in `lean/Verif/Model` has a comment
citing the file and lines it models.

* Outcomes: `Res` = `ok v | trap kind | ub`. Undefined behaviour is an outcome like any other; no theorem assumes it
  away. `trap` covers an abort and a thrown exception.
* Build modes: `Build` = (STRICT_DEBUG_OFF, STRICT_ERROR_EXCEPTIONS, NDEBUG). The assertion macros of `error.hpp` are
  functions of the build. `Checked` means debug assertions are on, `Release` that they are off, `Guarded` that
  `ASSERT_STRICT_ALWAYS` has an effect.
* Mutation: `Op σ α = σ → Res α × σ`, so the state left behind by a trap is part of the result.
* Loops: `foldN` and `Op.forN`, structural recursion on the trip count; the body may fail. Loops without a bound known
  in advance (`semi_rands_not0`, integer power of a negative exponent in release) run on fuel, and statements say
  "for every fuel" or "for some fuel".
* Sizes and indices are `long` (64-bit): the arithmetic of the library on them (`iadd`, `isub`, `imul`) is undefined
  behaviour on overflow.
* Element types are arbitrary Lean types with arbitrary partial operations; theorems about arithmetic results are over
  machine integers of any width, over rings/fields (exact arithmetic), or over the floating-point model.

## 2. Layout

| directory | contents |
|---|---|
| `lean/Verif/Core.lean` | `Res`, `Op`, builds, loops, machine integers |
| `lean/Verif/Model` | the program |
| `lean/Verif/Spec` | small specifications that do not mention the program: list and matrix operations, index sets, number grammar, meaning of expression trees |
| `lean/Verif/Lemmas` | auxiliary proofs |
| `lean/Verif/Conformance.lean` | some 350 assertions of the project's own tests evaluated in the model; these are tests of the model, not proofs, and no claim rests on them |
| `lean/Verif/Props` | the property theorems `Cnn_...`, each with `example`s meeting its hypotheses |
| `seeded/LOG.jsonl` | wrong programs the theorems were tried against |

## 3. Trusted base

* Lean 4.33.0's kernel; Mathlib definitions used in statements (`List.sum`, `Finset.sum`, `Nat.choose`, `Nat.factorial`,
  ordered fields, `Multiset`).
* Axioms: only `propext`, `Classical.choice` and `Quot.sound`. Section 8 lists them per theorem. No axiom is added, there
  is no `sorry`, no `native_decide`, no `bv_decide`.
* That the definitions in `Model` say what the cited C++ lines do. This was done by reading; nothing was compiled or run.
* That the specifications in `Spec` and the theorem statements say what `properties.jsonl` says.

## 4. What is modelled

| code | model |
|---|---|
| `StrictCommon/error.hpp` assertion macros | `Core.lean` |
| `StrictCommon/strict_val.hpp` integer operations, comparisons, increments, shifts, bit operations | `Model/StrictInt.lean` |
| `StrictCommon/strict_math.hpp`, `strict_val_ops.hpp` (powers, factorial, binomial, sign, clamp, intervals, error-free transformations, compensated powers) | `Model/StrictMath.lean`, `Model/StableOps.lean`; binary floating point: `Spec/Float.lean` |
| `StrictCommon/auxiliary_types.hpp` (`last - k`), `ArrayCommon/index_helper.hpp`, `valid.hpp`, element access of all array kinds | `Model/Index.lean` |
| `slice.hpp`, `ArrayCommon/valid.hpp` | `Model/Slice.lean` |
| `array_base1D.hpp`, `ArrayCommon/algorithm.hpp`, `ArrayCommon/alignment.hpp` | `Model/Array1D.lean`, `Model/Heap.lean`, `Model/HeapOps.lean`, `Model/Program.lean`, `Model/History1D.lean` |
| `array_base2D.hpp`, `ArrayCommon/algorithm.hpp` | `Model/Array2D.lean`, `Model/HeapOps2.lean`, `Model/History2D.lean` |
| `Expr/types.hpp`, `special.hpp`, `binary.hpp`, `unary.hpp`, `exclude_last.hpp`, `derived1D.hpp`, `derived2D.hpp`, `slicearray_base1D.hpp`, `slicearray_base2D.hpp`, `attach2D.hpp` (`view2D`, `view1D`) | `Model/Expr.lean`, `Model/Variadic.lean` |
| `Expr/functors.hpp`, operators of `unary.hpp`, `binary.hpp`, `derived_base.hpp` for integers and booleans | `Model/ArrayOps.lean` |
| `fixed_array_base1D.hpp`, `fixed_array_base2D.hpp` | `Model/Fixed.lean` |
| `attach1D.hpp`, `attach2D.hpp` (`attach1D`, `attach2D`) | `Model/Attach.lean` |
| storage of operands, `ArrayCommon/array_traits.hpp` `CopyOrReferenceExpr` | `Model/Lifetime.lean` |
| overload sets that make views, expressions, iterators and pointers, with the deleted overloads; `Expr/expr_traits.hpp`, `ArrayCommon/array_traits.hpp` | `Model/Overload.lean` |
| field widths of printed tables: `array_IO.hpp` | `Model/Table.lean` |
| arrays made from two iterators: `array_base1D.hpp`, `fixed_array_base1D.hpp`, `algorithm.hpp` | `Model/RangeCtor.lean` |
| programs with arrays of one and two dimensions: constructors and destructor of `array_base2D.hpp` over one memory | `Model/Mixed.lean` |
| programs that mix expressions, views and member functions; array_base1D.hpp and array_base2D.hpp members with expression operands | `Model/EProg.lean` |
| sort_increasing, sort_decreasing and shuffle as statements on arrays and views | `Model/SortStmt.lean` |
| programs with reductions, conditions and while loops | `Model/WProg.lean` |
| texts of exceptions (`error.hpp`), `print_config_info` | `Model/Diagnose.lean` |
| printing random expressions: `array_IO.hpp` | `Model/RandomPrint.lean` |
| algorithms on iterators, `shuffle`: `iterator.hpp`, `array_ops.hpp` | `Model/Algorithm.lean` |
| constructors, conversion functions and operator overloads of `Strict`, `ImplicitInt`, `ImplicitIntStatic`, `Last`: `StrictCommon/strict_val.hpp`, `strict_val_ops.hpp`, `auxiliary_types.hpp` | `Model/Convert.lean` |
| assignments: `derived1D.hpp`, `derived2D.hpp`, `derived_base.hpp`, `slicearray_base*.hpp`, `algorithm.hpp` | `Model/Assign.lean` |
| `array_ops.hpp`, `ArrayCommon/array_auxiliary.hpp` | `Model/Ops.lean` |
| `array_stable_ops.hpp` | `Model/StableOps.lean` |
| `iterator.hpp` | `Model/Iter.lean` |
| `Expr/special.hpp` (`irange` of arrays) | `Model/IndexRange.lean` |
| `Util/semi_random.hpp`, `Util/random.hpp` (several arrays) | `Model/RandomAll.lean` |
| `StrictCommon/strict_IO.hpp`, `array_IO.hpp` | `Model/IO.lean`, `Model/FloatIO.lean`, `Model/Format.lean` |
| sizes in bytes and comparison with lists in `derived1D.hpp`, `derived2D.hpp` | `Model/Sizes.lean` |
| `examples/example1.cpp` (rotation), `examples/example2.cpp` (removal, chains of slices), `examples/example3.cpp` (odd from even) | `Model/Idioms.lean` |
| `examples/example4.cpp` (`main`; the numbers drawn are inputs, the printed numbers the result) | `Model/Example4.lean` |
| `examples/example5.cpp` (`ode_solve`), `examples/example6.cpp` (`jacobi` and the construction of the matrix) | `Model/Examples.lean` |
| `Util/semi_random.hpp` | `Model/Random.lean`, `Model/RandomExpr.lean` |
| `Util/random.hpp`, without the standard distributions themselves | `Model/StdRandom.lean`, `Model/RandomExpr.lean` |
| `Util/timer.hpp`, `StrictCommon/constants.hpp` (`epsilon`) | `Model/Timer.lean` |
| `Util/error_tools.hpp` | `Model/ErrorTools.lean`, `Model/DefaultTol.lean` |
| `StrictCommon/strict_literals.hpp` (floating-point literals) | `Model/FloatLit.lean` |
| `Eigen/map.hpp`, `Eigen/matrix_ops.hpp` | `Model/Eigen.lean` |
| operators of floating-point `Strict<T>` with NaN, infinities, signed zeros (IEEE 754) | `Model/Ieee.lean`, `Model/Floor.lean` |
| operators and functions of floating-point arrays (`Expr/functors.hpp`, `Expr/unary.hpp`, `Expr/binary.hpp`, `derived_base.hpp`) | `Model/FloatOps.lean` |

### Not modelled

* The Eigen library itself (C89 assumes its documented behaviour). The constants `pi`, `e` and `sqrt2` of
  `constants.hpp`, which are those of the standard library. The engines and distributions of `<random>`: what
  C83 needs of them is a hypothesis (`Spec.Contract`).
* Overload resolution, concepts and traits beyond the calls of C86 and C123: elsewhere the model starts from the function that was
  selected. `lval`, which lets a temporary pass as a named array on purpose, and references to elements of temporaries
  (`makeArray()[0]`) are outside C86.
* Transcendental functions of `<cmath>`: roots and powers are parameters of the norms; other element-wise functions are
  parameters (C96).
* Alignment and failing allocation of anything but the dynamic arrays of C22, C87 and C88; `__restrict`; the memory model of C++ threads
  (C121 interleaves steps).
* `uppercase`, `showbase`, field widths, fill characters, `hexfloat` and locales of streams; the general notation of
  built-in floating-point numbers is a parameter (C94). Infinities, NaN and hexadecimal numbers when reading `float128`.
* NaN payloads and floating-point exception flags. Fused contraction by the compiler outside array expressions, `dot_prod`
  and `polynomial` (there: C141).
  Theorems on rounding errors (C59-C61, C70, C73, C81) are about numbers with unbounded exponent upwards (subnormals
  where a theorem says so); C93 transfers those on sums and inner products to formats with a largest number, C140 those on
  array expressions.

## 5. Simplifications

Each is repeated at the definition it concerns.

* Arrays are Lean lists plus a size; pointers, blocks, alignment and failing
  allocations are modelled separately in `Model/Heap.lean` (histories with contents, C22, C87, C88).
* An expression is an inductive tree of program text (`Tm`) and the object it evaluates to (`Acc`), a record of the
  members `rows`, `cols`, `size`, `un(i)`, `un(i, j)`, each a partial function of the current contents of all arrays.
* Dead objects are noticed by reads and by `size`, not by `rows` and `cols`.
* `std::sort`, `std::swap`, stream extraction and insertion have their C++ contract; extraction of numbers is modelled
  with the `strtoll`/`strtod` grammar of the C locale.
* Text streams are in-memory texts; a stream that fails for outside reasons is not modelled.

## 6. What the proofs found in the code

Where the code does not do what a user would expect, the theorem says what it does, and if the property was stated the
other way, a counterexample is a theorem too.

1. `remove_row(last - k)`, `remove_col(last - k)` and `exclude(A, last - k)` ignore `k` (C37, C46).
2. Self move-assignment of a 2D array leaves dimensions 0x0 with the data still there; `resize_and_assign(std::move(A))`
   of itself empties the array (C34, C29).
3. `A = A(reverse)` and other shifted reads of the target overwrite elements before they are read (C31).
4. `resize(n, false)` to the same size keeps the contents; the 2D version with the same total reinterprets them (C24, C35).
5. Debug builds do not trap shift counts of at least the width, `MIN / -1`, signed overflow or `abss(MIN)` (C01-C03, C08).
6. The generator's low three bits are constant: ranges of 2, 4 or 8 values give one value; `semi_rands_not0` may not
   return; ranges whose number of values is not representable are undefined behaviour (C68, C69).
7. `linspace` with one point divides by zero (C47).
8. `transpose` of a temporary and `matvec_prod` keep dangling references (C49).
9. Reading a 2D array: a line of spaces after the first row traps; an over-long row is written past the buffer in
   release builds before its length is checked (C67). Reading: a malformed or overflowing last token is dropped
   silently; `12+3` reads as 12 and 3 (C66).
10. `insert_row` of an empty row into an empty 2D array makes a shape with rows and no columns; inserting into an empty
    array is not atomic when an element traps (C34, C30, C38).
11. Bounds checks that overflow themselves: `seqN`, `blockN`, `remove(1, LONG_MAX)`, `exclude`, `skipN`, `diag(LONG_MIN)`
    (C14, C25, C40).
12. `view2D` with two negative dimensions passes the check that is on in every build (C41).
13. `all_of` of an empty array is false by default; `min`/`max` depend on the order when elements are not ordered (NaN) (C54, C53).
14. `ASSERT_STRICT_ALWAYS` has no effect when NDEBUG is set without exceptions (C21).
15. `binom_coeff` overflows although the result fits (C07); integer power and factorial of negative numbers do not
    terminate in release builds (C05, C06).
16. `IndexRange2D(m, 0)` is undefined behaviour in release and `(0, n)` walks out of range (C64).
17. `rel_error(0, y)` is none although the relative error could be defined (C70).
18. The default printing precision of `float`, `long double` and `float128` loses information; a printed array of `bool`
    cannot be read back; printing a 2D integer array containing the most negative value is undefined behaviour (C75, C76).
19. Temporary owning arrays are accepted, and the result dangles, in four places although other overloads for temporaries are
    deleted: `generate(A, f)` and `generate(A, B, f)` have no deleted overload; that of `pow_prod` asks for two floating-point
    arrays, which `pow_prod` never has; that of `tensor_prod` asks for `OneDimRealBaseType` of a forwarding reference, which
    is false for lvalues; and `operator()(index list) &&` of one-dimensional arrays lacks the constraint of its
    neighbours (C86).
20. `stable_polynomial` uses `int` powers, so more than 2^31 coefficients trap (C62).
21. `&&` and `||` of strict booleans evaluate both operands, so an index test on the left does not guard an access on
    the right (C78).
22. `_si` and `_sl` literals that are too large change their value silently in release builds, `_sui` and `_sul` in all
    builds (C80).
23. `A = B` between arrays of the same type selects the template for arrays and expressions (`derived1D.hpp:353-355`,
    `derived2D.hpp:725-727`), not the copy assignment with its test for self-assignment; the result is the same (C81).
24. `attach1D` and `attach2D` accept any non-negative size; access beyond the caller's memory is undefined (C82).
25. `random(A, B, A[i], A[j])` reads the bounds again after filling `A`; random quadruple-precision numbers may lie
    outside the bounds, which are rounded to double (C83).
26. `eigen::map` accepts temporary arrays; the map it returns then refers to elements that no longer exist (C89).
27. `_sf` and `_sd` literals are rounded twice, first to `long double`, so they need not denote the nearest number; `_sq`
    rejects decimal literals such as `07.5_sq` and ignores everything from the first digit separator on (C90).
28. `abss(+0)` is -0 and `abss(-0)` is +0, so `1 / abss(0)` is -infinity. `within_tol_abs` is false for two equal
    infinities; `within_tol_rel(NaN, 0, ...)` is true, with the arguments exchanged it is false (C91).
29. `norm_inf`, `max_abs_error`, `min` and `max` pass over NaN unless it is the first element, so a computation that went
    wrong can look accurate (C92).
30. The compensated sums, inner products and norms are NaN when an element is infinite or the sum overflows, where the
    plain ones are infinite (C92). Sorting an array with NaN calls `std::sort` with a comparison it does not allow (C92).
31. `format.precision(n)` with `n` of 2^31 or more stores `n` modulo 2^32; for `float128` a negative stored value gives a
    malformed format string (C94, C95). Writing a `Strict` number leaves `showpos`, the notation and the precision of the
    stream changed for everything printed later (C94).
32. The text of a `float128` is cut after 127 characters: from 125 digits on scientific notation loses the exponent, and
    numbers of 128 digits lose their last digits in fixed notation (C95).
33. Reading a `float128` at the end of a stream sets the variable to zero and reports no error; for the other types it is
    an error (C95, C66).
34. `pow_int`, `pows_int` and `exps_int` round the exponent to the floating-point type, so odd exponents from `2^p + 1` on
    become even and the power of a negative number has the wrong sign; `fast_pow_int` uses the exact exponent (C96, C97).
35. `fast_pows_int(x, -n)` divides one by `x^n`, so it is zero where `x^n` overflows although `x^-n` may be a
    floating-point number, such as 2^-1060 in double precision (C97).
36. `abs(A)` of floating-point arrays exchanges the zeros, like `abss` (C96).
37. `semi_random<T>(m, n, low, high, seed)` seeds its generator with `seed + n`, while filling an `m` by `n` array uses
    `seed + m n`, so the two need not give the same numbers; in one dimension they do (C103).
38. The residual test of example 6 evaluates `matvec_prod(A, x)` after the call has returned, and that expression holds a
    reference to a local function object of `matvec_prod` (finding of C49); the function object has no state, so the model
    of the example gives the calls their intended results (C106).
39. The rotation of example 1, `x = merge(y[last], exclude(y, last))`, is wrong in place: with `x` and `y` the same array
    every element becomes the former last one, without any diagnostic (C110).
40. `irange_m1`, `irange_row_m1` and `irange_col_m1` of an empty object ask for a range of size -1. Checked builds reject it
    (the loop is not just empty); builds without checks give a range whose loop runs through 0, 1, 2, ... and does not end
    (C112).
41. Semi-random numbers have period 62500 (at most; 31250 for booleans), small seeds have only 25 different sequences, and
    `semi_random(A, B)` gives arrays of the same size the same elements (C113).
42. `prod` of an object without elements is 0 by default, not 1, so `prod(merge(A, B)) = prod(A) * prod(B)` fails when
    exactly one of them is empty (C114).
43. `timer` uses `high_resolution_clock`, which is the system clock in libstdc++ (and the member `start` has the type
    `system_clock::time_point`, so the header does not compile where it is the steady clock): a measured time is
    negative when the clock is set back meanwhile (C116_sign).
44. `mean` of equal numbers need not be that number: in double precision the mean of five copies of the double nearest to
    1/67 is the next smaller double, so it lies outside the range of the elements (C119_mean_outside).
45. `&&` and `||` of a strict boolean and a built-in number of any type compile, because a strict boolean converts
    implicitly to `bool` and the built-in operators are candidates: `b && 2.5` converts 2.5 to `true` and gives a
    built-in `bool` (C123_logic). All other mixed operations are rejected, but sums of a `Strict<long>` and an `int`
    only because the overloads for `ImplicitInt` and `ImplicitIntStatic` are equally good: removing either of
    them would make the sum compile (C123_no_builtin fails for such a program).
46. The iterators of owning arrays are declared contiguous (`std::contiguous_iterator_tag`, iterator.hpp:183-186), which
    requires the address of every iterator up to `end()`; but `operator->`, which `std::to_address` calls, checks that the
    position is an element. In checked builds `std::to_address(A.end())` traps, and so does everything built on it, such
    as `std::span` of the two iterators in some implementations (C124_address).
47. Printing a 2D floating-point array in fixed notation converts `log10` of the largest absolute value to `int`; if that
    is an infinity or NaN the conversion is undefined behaviour (C125_undefined). So a table that contains an infinity cannot
    safely be printed in fixed notation.
48. The field width is computed from the number, not from the rounded number: 9.996 with two digits after the point is
    printed as +10.00 in a field for +9.99, and the columns are not aligned (C125_sticks_out).
49. The field width of a printed 2D random expression of integers is found with `abss` of its bounds, which is undefined
    behaviour if a bound is the most negative number of the type, even if that number is never drawn (C126_width).
50. `Array1D A(b, e)` with `e` before `b` is rejected in checked builds only after an array of `b - e` elements has been
    made (the size is the absolute value of the difference); without the checks elements are written past that array
    or read past the other one (C127_outcome, C127_backwards_release). Two equal iterators that point to no element are
    accepted.
51. A view kept in a variable (`auto v = A(all);`) checks subscripts against the size the array had when the view was
    made. After `A` has become shorter `v[k]` passes the check in debug builds and reads or writes past the end
    (C129_shrunk). A kept row of a matrix is not that row any more after the number of columns has changed (C129_row).
    A kept `A + x` follows the size of `A`, a kept `x + A` does not (C129_scalar), and a kept `A + B` is not checked
    again when it is used (C129_sum_shrunk).
52. `A.insert_row(0, e)` and `A.insert_col(0, e)` of an empty matrix `A` change the size of `A` before the elements of `e`
    are read. If `e` is computed from `A`, for example `merge(row_reduce(A, sum), x)`, the inserted row is wrong in
    every build, although insertion into a non-empty matrix and `insert_rows` are safe (C130_own_first_row).
53. With `NDEBUG` but without `STRICT_DEBUG_OFF` and `STRICT_ERROR_EXCEPTIONS` no check has an effect, yet all conditions are
    still evaluated (the macro tests the condition before it calls `assert`), so such a build pays for the checks without having
    them, and a condition that overflows is undefined behaviour there (C133).
54. `remove_rows_front(0)`, `remove(pos, 0)` and the like are rejected, while `remove` of an empty list of positions is
    accepted and does nothing; `insert_rows` of an operand without elements is rejected unless the array is empty, while
    `insert` of an empty one-dimensional operand and `merge_vertical` with an empty one are accepted
    (C134_nothing_differs).
55. `max_rel_error(A, B) <= tol` implies `within_tol_rel(A, B, tol)`, but not conversely: the former divides by the exact
    value, the latter by the larger magnitude, so 2 and 1 have relative error 1 and are within one half
    (C135_rel_converse_fails). For an infinite tolerance not even the implication holds (C135_infinite_tolerance), and
    `max_abs_error(A, B) <= tol` agrees with `within_tol_abs(A, B, tol)` only if no difference is NaN (C135_nan_differs).
56. The loop of example4 keeps its maximum with `maxs(max_err, *rel)`. If an error were NaN, the maximum would become NaN
    and the next error would replace it, whatever came before (C138_nan); the sum would stay NaN. With coefficients and
    points in [-1, 1] this does not happen.
57. tests/CMakeLists.txt:62-66 and benchmarks/CMakeLists.txt:50-54 build with `-march=native`. On processors with fused
    multiply-add GCC then contracts by default, so results can differ between builds and `A * A - A * A` need not be zero
    (C141_visible), and its square root may be NaN (C141_root); they stay within the bounds of C140 (C141_errors), and
    `norm2` is safe (C141_norm2).
58. array_ops.hpp:535 and 547 take the root of `norm_lp` as `pows(s, invs(lp))`: the exponent `1 / lp` is rounded first. If
    `lp` is not a power of two, the result is off by about `u |ln s| / lp`: `norm_lp(A, 3)` of the single double `2^300` is
    off by more than 99 unit roundoffs, although the norm is `2^300` itself (C102_norm_lp_cube). `std::cbrt` would do for 3.
59. A consequence for users rather than an error: `while(norm2(R) > tol)` ends as soon as the norm is NaN, as if the iteration
    had converged; `while(!(norm2(R) <= tol))` ends only when the norm is at most `tol`, and does not end if it stays NaN
    (C132_tolerance_float and the examples in Props/Iterate.lean).

## 7. The properties: what is modelled and how it is proved

The statements are in `properties.jsonl`; the exact theorem names are in `MANIFEST.json`.

* **C01** Integer division and remainder. Model/StrictInt.lean: machine integers as Int with width/signedness, C++ partial operations. Proof: case analysis + Int.tdiv lemmas. Theorems: `Props/StrictInt.lean` (5, proved). Division and remainder for every integer type and every operand pair; UB exactly at MIN/-1.
* **C02** Signed arithmetic is exact or undefined, unsigned wraps. Model/StrictInt.lean. Proof: direct, against an independent `Spec` of representability and wrap-around. Theorems: `Props/StrictInt.lean` (8, proved). Exactness, wrap-around and the exact UB condition; compound assignment and increments agree.
* **C03** Shifts. Model/StrictInt.lean. Negation witness for count >= width, partial theorem for count < width. Theorems: `Props/StrictInt.lean` (3, proved). Shift results and traps; the missing count check is proved as C03_shift_count_not_checked.
* **C04** Debug checks are transparent. Every modelled operation is a function of a `Build`. Lemmas/Checks*.lean relate a run with checks to the run without (same value and state, or the checked run stops) through every construct of the model: slices, views, expressions, statements, owning arrays, buffers, whole-array operations, iterators, streams. Props/Checks.lean and Props/Checks2.lean state it for whole programs, those in memory that may run out included. The element operations of an expression may contain checks of their own (Spec/Checks.lean: SameText). The two theorems *_overflows show where a check itself is undefined. Theorems: `Props/Checks.lean`, `Props/Checks2.lean`, `Props/Checks3.lean`, `Props/Checks4.lean`, `Props/Index.lean`, `Props/StrictInt.lean`, `Props/StrictMath.lean` (63, proved). whole programs with and without checks; programs that handle exceptions excluded (C04_handlers shows why) Checks3.lean adds whole programs (expressions, conditions, loops, arrays in memory), algorithms on iterators, sorting, ranges, several random fills, and the example programs; handlers are excluded because they observe failed checks (C04_handlers).
* **C05** Integer power. Model/StrictMath.lean, the loop as structural recursion on the remaining exponent. Proof: loop invariant res*xr^pr = x^n plus |xr| <= |x^n|. Theorems: `Props/StrictMath.lean` (3, proved).
* **C06** Factorial. Model/StrictMath.lean; induction. Theorems: `Props/StrictMath.lean` (2, proved).
* **C07** Binomial coefficient. Model/StrictMath.lean; invariant prod = choose(d1+i, i). Theorems: `Props/StrictMath.lean` (4, proved). Exact success condition; the unrestricted claim is refuted by C07_binom_full_claim_false.
* **C08** Sign, absolute value, minimum, maximum, clamp. Model/StrictMath.lean; order reasoning. Theorems: `Props/StrictMath.lean` (5, proved).
* **C09** Interval membership and selection. Model/StrictMath.lean (scalars) and Model/Ops.lean (selection of elements; the selected view is a slice with an index list). Theorems: `Props/Select.lean`, `Props/StrictMath.lean` (4, proved).
* **C10** Fast power with signed exponent. Model/StrictMath.lean over an arbitrary field. Theorems: `Props/StrictMath.lean` (2, proved).
* **C11** TwoSum is error free. Model/StableOps.lean over Spec/Float.lean: radix-2 precision-p unbounded-exponent round-to-nearest on rationals. Proof: Sterbenz-style exactness. Theorems: `Props/ErrorFree.lean` (1, proved). For every binary precision of at least two bits and every least exponent (gradual underflow, round to nearest with any rule for ties; overflow is not modelled): the two components add up exactly to x+y and the first is the rounded sum.
* **C12** TwoProd is error free. Spec/Float.lean: exactness of the product error. Theorems: `Props/ErrorFree.lean` (2, proved). Same arithmetic: exact whenever the product is a multiple of the smallest positive number, exactly when that holds, and always when exponents of x and y are large enough.
* **C13** Compensated power is first-order exact. Model/StableOps.lean over a commutative ring with an ideal of square zero (first-order errors). Theorems: `Props/PowProds.lean` (4, proved). Rounding without a least exponent (no underflow), any precision of at least two bits, any rule for ties: the sum of both components differs from x^p by at most 2((1+u)^(2p)-1)^2 |x|^p. Every exponent that fits the index type; negative exponents trap or fail as the code does.
* **C14** seqN slices stay in range. Model/Slice.lean; endpoints valid => all valid (monotone in i). Theorems: `Props/Slice.lean` (8, proved). Acceptance iff every selected index is in range, for every accepted slice kind; C14_check_overflows records that the check itself can overflow for astronomically large strides.
* **C15** seq slices are inclusive ranges. Model/Slice.lean; truncating division cases. Theorems: `Props/Slice.lean` (3, proved).
* **C16** Named slices select the documented index lists. Model/Slice.lean; closed forms for the index lists. Theorems: `Props/Slice.lean` (4, proved).
* **C17** Complement slices. Model/Slice.lean; two-pointer loop invariant. Theorems: `Props/Slice.lean` (3, proved).
* **C18** last - k arithmetic. Model/Index.lean. Theorems: `Props/Array1D.lean`, `Props/Index.lean` (3, proved).
* **C19** Slices of slices compose. Model/Slice.lean and Model/Expr.lean (slices are nodes of the expression tree). Induction over nesting. Theorems: `Props/Nested.lean`, `Props/Slice.lean` (2, proved).
* **C20** Slice assignment writes exactly the selected elements. Model/Expr.lean assignment loop; frame lemma. Theorems: `Props/Assign.lean` (9, proved).
* **C21** Bounds checking. Model/Index.lean, Model/Array1D.lean, Model/Array2D.lean. Theorems: `Props/Index.lean` (10, proved).
* **C22** Ownership of storage. Model/Heap.lean: heap of blocks, arrays as (pointer, size); invariant over operation histories. Theorems: `Props/Heap.lean` (7, proved).
* **C23** 1D arrays behave like lists under every history. Model/Array1D.lean + History: simulation between the operation history and list operations. Theorems: `Props/History1D.lean` (3, proved).
* **C24** 1D resize. Model/Array1D.lean: loops over buffers, refinement to List. Theorems: `Props/Array1D.lean` (2, proved).
* **C25** 1D removal. as C24. Theorems: `Props/Array1D.lean` (8, proved). C25_remove_check_overflows records that the check pos+count-1 itself can overflow.
* **C26** 1D removal of an index set. as C24 with the complement loop. Theorems: `Props/Array1D.lean` (2, proved).
* **C27** 1D insertion. as C24. Theorems: `Props/Array1D.lean` (4, proved).
* **C28** Insertion and removal are inverse. corollary of C25/C27. Theorems: `Props/Array1D.lean` (2, proved).
* **C29** Copy, move and swap of 1D arrays. as C24; pair state for two arrays. Theorems: `Props/History1D.lean` (11, proved). Self move through resize_and_assign empties the array (C29_resize_and_assign_move).
* **C30** Rejected calls leave arrays unchanged. Op monad records the state at the trap; witness for mid-expression traps. Theorems: `Props/Assign.lean`, `Props/Assign1D.lean`, `Props/History1D.lean` (6, proved).
* **C31** Aliasing assignment. Model/Assign.lean: the copy loop reads the source while writing the target. Predicate: element i of the source depends on the target at i only. Negation for shifted/reversed reads. Theorems: `Props/Assign.lean`, `Props/Assign1D.lean` (7, proved).
* **C32** Row-major layout. Model/Index.lean; div/mod. Theorems: `Props/Index.lean` (2, proved).
* **C33** Linear and two-index access agree for every 2D expression. Model/Expr.lean; mutual induction over 1D/2D expression trees. Theorems: `Props/Expr.lean` (2, proved).
* **C34** Shape invariant of 2D arrays. Model/Array2D.lean histories. Theorems: `Props/History2D.lean` (14, proved). Histories of all modelled member functions on any number of 2D arrays refine matrix programs and keep the shape invariant; the two exceptions named in the property are proved as C34_self_move_breaks_shape and C34_empty_row_breaks_shape.
* **C35** 2D resize. Model/Array2D.lean. Theorems: `Props/Array2D.lean` (4, proved).
* **C36** Row and column removal. Model/Array2D.lean. Theorems: `Props/Array2D.lean`, `Props/Insert2D.lean` (7, proved).
* **C37** remove_row(last - k) / remove_col(last - k). Model/Array2D.lean: the code resolves the position without the argument, and so does the model; corollary of C36. Theorems: `Props/Insert2D.lean` (3, proved). The argument is ignored for every k (C37_last_ignored is the concrete witness).
* **C38** Row and column insertion. Model/Array2D.lean. Theorems: `Props/Insert2D.lean` (10, proved).
* **C39** Row and column insertion and removal are inverse. corollary. Theorems: `Props/Insert2D.lean` (3, proved).
* **C40** Row, column, diagonal and block views. Model/Expr.lean. Theorems: `Props/View.lean` (9, proved).
* **C41** Reshaping views. Model/Expr.lean. Theorems: `Props/View.lean` (6, proved).
* **C42** 2D slices with an empty factor are 0x0. Model/Expr.lean. Theorems: `Props/Nested.lean`, `Props/Slice.lean` (2, proved).
* **C43** Lazy element-wise evaluation. Model/Expr.lean: evaluation total on well-formed trees; denotation to lists/matrices. Theorems: `Props/Expr.lean` (8, proved).
* **C44** Transpose. Model/Expr.lean. Theorems: `Props/Concat.lean` (3, proved).
* **C45** Concatenation. Model/Expr.lean. Theorems: `Props/Concat.lean` (9, proved). C45_thin_operand_reads_outside records the operand for which merge_horizontal reads outside in every build.
* **C46** exclude. Model/Expr.lean; witness for last - k. Theorems: `Props/Concat.lean` (5, proved). C46_last_minus_k_false records that exclude(A, last - k) ignores k.
* **C47** Generators. Model/Expr.lean. Theorems: `Props/Generate.lean` (8, proved). linspace in exact arithmetic; linspace(1, ..) divides by zero (C47_linspace_one).
* **C48** Reductions along rows and columns, broadcasts, tensor and matrix-vector products. Model/Expr.lean. Theorems: `Props/Generate.lean` (6, proved).
* **C49** Expressions do not dangle. Model/Lifetime.lean: expression objects that read through references, and the set of live C++ objects as part of the state. Proof: simulation with Model/Expr.lean by induction over the tree; the two dangling node kinds are theorems. Theorems: `Props/Lifetime.lean` (8, proved). Stored objects behave like the expression while its arrays live (all node kinds except matvec_prod and transpose of a non-array); the two exceptions are proved to dangle.
* **C50** Compound assignment. Model/Expr.lean. Theorems: `Props/Assign.lean` (4, proved).
* **C51** Equality. Model/Ops.lean (operator== of arrays). Theorems: `Props/Ops.lean` (4, proved). for arrays, slices and expressions of any shape; elems_of_expression links program text to objects
* **C52** sum, prod, mean, dot_prod. Model/Ops.lean loops; induction. Theorems: `Props/Ops.lean` (9, proved). exact arithmetic, left-to-right order for any arithmetic, and signed (exact or undefined) / unsigned (wraps) integers
* **C53** min, max and their indices. Model/Ops.lean. Theorems: `Props/Extrema.lean` (5, proved). for element types with a linear order; C53_nan shows the order dependence with NaN
* **C54** Quantifier operations. Model/Ops.lean. Theorems: `Props/Ops.lean` (6, proved).
* **C55** Polynomial evaluation. Model/Ops.lean. Theorems: `Props/Poly.lean` (6, proved). gpolynomial and polynomial with powers assume that std::pow is exact for natural exponents
* **C56** Norms. Model/Ops.lean (roots are parameters). Theorems: `Props/Poly.lean` (6, proved). norm2 and norm_lp relative to the given square root and power functions
* **C57** Sorting. Model/Ops.lean. std::sort is external: the model takes any function with the C++ contract (a sorted permutation for a comparison that is a strict weak order on the elements). Theorems: `Props/Select.lean` (2, proved). relative to the specification of std::sort (StdSort), which merge sort satisfies
* **C58** Compensated summation is exact up to the compensation. Model/StableOps.lean with abstract rounding. Theorems: `Props/Stable.lean` (3, proved). Any binary precision of at least two bits, any least exponent, any rule for ties; overflow is not modelled.
* **C59** Compensated summation error bound. Model/StableOps.lean over the rounding operator of Spec/Float.lean; induction with the two-sum error bound. Theorems: `Props/Stable.lean` (2, proved). Same arithmetic; the bound is u|sum| + (1+u)((1+u)^(n-1)-1)^2 sum|a_i|, also with the customary gamma.
* **C60** Blocked summation. Model/StableOps.lean. Theorems: `Props/Stable.lean` (3, proved). Also the rounding error bound in the same arithmetic.
* **C61** Compensated product and dot product. Model/StableOps.lean. Theorems: `Props/Stable.lean` (7, proved). Gradual underflow: products must be multiples of the smallest positive number; without a least exponent no condition. stable_prod's bound is for arithmetic without a least exponent.
* **C62** Stable polynomials. Model/StableOps.lean. Theorems: `Props/StablePoly.lean` (9, proved). For every coefficient vector up to 2^31 elements (stable_polynomial, whose powers are of type int: with more, C62_too_many shows that checked builds trap) or 2^62 (the others); also the rounding error bound, and the compensated norms.
* **C63** Iteration visits every element once in order. Model/Iter.lean. Theorems: `Props/Iter.lean` (8, proved). Range-for over any array, slice or expression equals the index loop whatever the body does to the elements; the size must stay the same. Reverse iterators are std::reverse_iterator as the standard describes it.
* **C64** IndexRange2D visits every (row, col) once. Model/Iter.lean. Theorems: `Props/Iter.lean` (6, proved). Without debug checks an m by 0 range is undefined behaviour (C64_degenerate); checked builds reject it.
* **C65** Row and column iterators. Model/Iter.lean. Theorems: `Props/Iter.lean` (3, proved). Forward and reverse; rows concatenate to the row-major elements, columns to a permutation of them.
* **C66** Reading 1D arrays from streams. Model/IO.lean on character streams, with the number grammar of Spec/IO.lean; every text is classified. Theorems: `Props/IO.lean` (9, proved). Over every text and every number scanner that consumes what it accepts; instances for integers with the C++ library's scanner, including the dropped trailing token. Device errors (badbit) and floating-point scanners are outside the model.
* **C67** Reading 2D arrays from streams. Model/IO.lean; lines, first row fixes the number of columns, every text is classified. Theorems: `Props/IO.lean` (7, proved). Over every text: good rows, no rows, malformed first row, short and malformed rows, over-long rows with the exact condition under which release builds write outside the buffer.
* **C68** Semi-random integers lie in the requested range. Model/Random.lean: the linear congruential generator on machine integers. Theorems: `Props/Random.lean` (9, proved). Explicit model of the generator with unsigned wrap-around. Every value in range for scalars, any number of draws, arrays and expressions; exact values. The representability condition on the size of the range is shown to be needed (C68_too_wide).
* **C69** Semi-random non-zero generation terminates. Model/Random.lean; the low three bits of the state are constant, so divergence is proved for every number of draws. Theorems: `Props/Random.lean` (8, proved). The expectation that it always returns is false of the code: C69_never, C69_five and C69_array_never prove non-termination (no result within any number of steps). What holds is proved: returned values, ranges without zero, even sizes, the default range for every seed.
* **C70** Tolerance comparisons. Model/ErrorTools.lean over ordered fields. Theorems: `Props/ErrorTools.lean` (10, proved). Exact arithmetic over any ordered field; C70_rounded adds the effect of rounding on within_tol_abs. Overloads on braced lists convert and call these.
* **C71** for_each visits every element once, in order. Model/Ops.lean; the callback is an arbitrary partial state transformer. Theorems: `Props/Select.lean` (2, proved).
* **C72** blas_array. Model/Ops.lean; the returned buffer is a fresh block. Theorems: `Props/Select.lean` (1, proved).
* **C73** Rounding error of plain sums and inner products. Model/Ops.lean loops over the rounding operator of Spec/Float.lean; standard (1+u)^n analysis by induction. Theorems: `Props/Stable.lean` (2, proved).
* **C74** Semi-random floating-point numbers lie in the requested range. Model/Random.lean; monotonicity of rounding through each operation. Theorems: `Props/Random.lean` (3, proved). For every round-to-nearest binary format with at least 24 bits, gradual underflow included, overflow of high - low excluded.
* **C75** Printed arrays and reading them back. Model/IO.lean (text produced) composed with Model/IO.lean (text read). Theorems: `Props/Print.lean` (18, proved). count_digit goes through std::log10 and is a parameter: the texts of the detailed formats and the alignment of 2D fields assume it counts digits correctly, the round trips hold for any count. Random expression objects (printed from their bounds) and stream failures while writing are outside the model.
* **C76** Printing and reading floating-point numbers. Model/FloatIO.lean: decimal output as correctly rounded quotient of integers, input as correctly rounded decimal; round trip by the 2^p < 10^P argument; lossy defaults as counterexamples. Theorems: `Props/FloatIO.lean` (14, proved). The numbers are rationals (no infinities, NaN, negative zero or overflow on reading); the library's conversions are taken to be correctly rounded. C76_float_lossy, C76_long_double_lossy and C76_quad_lossy show that the default precision of the other types loses digits.
* **C77** Bitwise operators. Model/StrictInt.lean and Model/Scalar.lean over bit vectors; the specification is arithmetic (digit i is floor(x / 2^i) mod 2). Theorems: `Props/Scalar.lean` (4, proved).
* **C78** Comparisons and strict booleans. Model/Scalar.lean: operands of strict booleans are computations with an outcome, and the overloaded operators evaluate both. Theorems: `Props/Scalar.lean` (4, proved).
* **C79** Conversions between number types. Model/Scalar.lean: static_cast with the rules of the C++ standard; floating-point values are rationals with the rounding of Spec/Float.lean. Theorems: `Props/Scalar.lean` (8, proved). no NaN and infinities
* **C80** Literals and named arguments. Model/Scalar.lean, literal operators and the argument classes. Theorems: `Props/Scalar.lean` (3, proved). consteval failures (compilation errors) are modelled as traps
* **C81** Fixed-size arrays. Model/Fixed.lean: constructors and assignments of fixed-size arrays as loops over a list of the declared length; invariant length = declared size, histories by induction. Theorems: `Props/Fixed.lean` (12, proved). constructors, assignments, moves and swap of fixed-size arrays, as histories
* **C82** Views of the caller's memory. Model/Attach.lean: the pointer proxy and the slice around it as accessors over external memory; equal to the slice / the view2D proxy of an array with that memory. Theorems: `Props/Attach.lean` (7, proved). attached vectors and matrices; access beyond the memory is undefined, and a theorem says so
* **C83** Random numbers from the standard library. Model/StdRandom.lean: the wrappers over an arbitrary generator whose contract (values between the bounds) is a hypothesis; loops by induction over draws. Theorems: `Props/RandomAll.lean`, `Props/StdRandom.lean` (15, proved). for an arbitrary generator that keeps the contract of the standard distributions
* **C84** Checked builds have no undefined behaviour. Lemmas/Safe.lean: by induction over views and expressions, one that does not make sense traps; Lemmas/Safe2.lean: the loops of each statement under an invariant (sizes kept, elements outside the target kept); then induction over programs. Theorems: `Props/Safe.lean` (6, proved). Sizes are bounded (Spec/Modest.lean) because index arithmetic itself is unchecked; element operations are assumed not to have undefined behaviour of their own (e.g. checked integer arithmetic, C01).
* **C85** Operators of integer and boolean arrays. Model/ArrayOps.lean: the functor each operator names, over the scalar operators of Model/StrictInt.lean; the positions by the expression model. Theorems: `Props/ArrayOps.lean` (11, proved).
* **C86** No views or expressions of temporary arrays. Model/Overload.lean: overload sets as lists of candidates (parameter forms, constraints, deleted or not), overload resolution as in the standard; the theorem compares the call that wins with the rule in Spec/Temps.lean. The calls of an expression tree are collected and joined with C49. Theorems: `Props/Temps.lean` (13, proved). The four kinds of call that accept temporary arrays are part of the statement (finding 19).
* **C87** Alignment of storage. Model/Heap.lean with an arbitrary allocator whose contract is a hypothesis (Spec.AllocatorContract); the invariant says which flag every block was allocated with. Theorems: `Props/Storage.lean` (3, proved). The contract of operator new is a hypothesis (Spec.AllocatorContract).
* **C88** When pointers to elements stay valid. Lemmas/HeapSteps.lean: for each statement, which array objects it leaves unchanged; the pointer is a function of the object. Theorems: `Props/Storage.lean` (4, proved).
* **C89** Arrays as Eigen matrices, and matrix products. Model/Eigen.lean: map and matrix_prod over the documented behaviour of Eigen (row-major maps, products evaluated into a temporary); the sum of products is a parameter, with a contract for integers and, for floating point, the set of results of all orders of addition (Spec.Computes), bounded by induction. Theorems: `Props/Eigen.lean` (10, proved). Eigen is represented by its documented behaviour; the accepted temporaries are part of the statement (finding 26).
* **C90** Floating-point literals. Model/FloatLit.lean: two roundings for _sf and _sd, the characters of _sq read by the decimal scanner of Model/FloatIO.lean; neighbours by monotonicity of nearest rounding; the counterexamples lie just above and below a midpoint. Theorems: `Props/FloatLit.lean` (8, proved). The number written is a rational; overflow is excluded; long double is the x86 format. Hexadecimal _sq literals are not modelled. The statement includes the exceptions found (findings 27).
* **C91** Special floating-point values in strict scalars. Model/Ieee.lean: values are NaN, infinities or a sign and a magnitude; operations round the exact result once and overflow to infinity; the rounding and the largest number are parameters. Case analysis. Theorems: `Props/Ieee.lean`, `Props/IeeeArith.lean` (23, proved).
* **C92** Special floating-point values in arrays. The operations of Model/Ops.lean and Model/StableOps.lean on the values of Model/Ieee.lean; induction on the list of elements. The compensated loops keep the invariant: the running sum is finite or running sum plus correction is NaN. Theorems: `Props/IeeeFinite.lean`, `Props/IeeeOps.lean` (12, proved).
* **C93** A finite result did not overflow. Spec/Ieee.lean says what agreeing with the operation without a largest number means (IfFinite). Backwards induction: a finite result of an operation has finite operands, so all intermediate results are finite and equal those of the rounded rational model of C59-C61 and C73. Theorems: `Props/IeeeFinite.lean`, `Props/IeeeMore.lean` (8, proved).
* **C94** Settings for printing numbers. Model/Format.lean: the settings as a state machine, the flags of a stream and what each operator<< writes and changes. Induction on the sequence of settings and on the sequence of things printed. Theorems: `Props/Format.lean` (13, proved). Settings and streams, with the exceptions stated.
* **C95** Printing and reading quadruple precision. Model/Format.lean: the text of quadmath_snprintf cut to 127 characters, words and strtoflt128 as a scanner on characters. Spec/Format.lean defines decimal numbers (NumberText) independently; the scanner accepts a word exactly if it is one. Array reading by induction on the words. Theorems: `Props/Quad.lean` (13, proved). With the exceptions stated; texts of infinities, NaN and hexadecimal numbers are not modelled.
* **C96** Operators and functions of floating-point arrays. The operators of `Model/Ieee.lean` plugged into the expression model (`Model/FloatOps.lean`); the functions of the standard library are parameters. `Spec/FloatOps.lean` says what the result of an operation is. Each element by case distinction on special values; arrays through the lemmas on expressions and assignments of C04, C82 and C85. Theorems: `Props/FloatOps.lean` (16, proved).
* **C97** Integer powers by squaring. The loop of `fast_pows_int` with any multiplication keeps every invariant that products keep (strong induction on the exponent); used with error bounds, exactness, classes of magnitudes with signs, NaN, and finiteness. Theorems: `Props/FastPow.lean` (12, proved).
* **C98** Rounding to integers. `std::floor` and `std::ceil` as in the C standard (`Model/Floor.lean`); representability from the digits of the number. Theorems: `Props/Floor.lean` (4, proved).
* **C99** When memory runs out. The member functions of Model/Array1D.lean again, on the heap of Model/Heap.lean with an allocator that refuses any set of requests (`Model/HeapOps.lean`); each is shown equal to the list version by a simulation that carries the ownership invariant; then induction over the program. Theorems: `Props/Memory.lean` (5, proved).
* **C100** When memory runs out in two dimensions. As C99, for the member functions of Model/Array2D.lean on the same heap with dimensions beside each array (`Model/HeapOps2.lean`). Theorems: `Props/` (5, proved). valid and invalid statements, whole programs, and which statements ask for memory
* **C101** Scopes, exceptions and release of storage. A small structured language (`Spec/Program.lean`: blocks with local arrays, exceptions, handlers, branches, loops) with a list meaning, run on the heap of C22/C99 (`Model/Program.lean`; destructors run on both ways out of a block); simulation by induction on programs. Theorems: `Props/` (6, proved). The simulation covers every build; statements are required to have moderate sizes and, in builds without checks, valid arguments (Prog.Moderate).
* **C102** Rounding errors of products, means, norms and polynomials. The operations of C52, C55, C56, C59 and C61 with rounded arithmetic (`rounded`); each intermediate result is `Close` to its exact value, the number of roundings counted by induction over the elements; square roots compared over the reals (`Spec/Accuracy.lean` states what is assumed of `std::sqrt` and `std::pow`). For norm_lp: roots do not increase relative errors, and a change of the exponent by u/q changes S^(1/q) by at most the factor L^(u/q). Theorems: `Props/` (20, proved). The square root is assumed accurate to one unit roundoff and the power function to k roundings; overflow and underflow are excluded (norm1: only overflow).
* **C103** Random expressions. A random expression is an access function on the state of its generator; construction and assignment are the copy loops of `algorithm.hpp` threading that state (`Model/RandomExpr.lean`). Induction over the accesses gives the values as a function of the sequence of draws of C68 and C83; for `_not0` its non-zero part, with fuel for the loop that need not end. Theorems: `Props/` (20, proved). All four expressions in one and two dimensions; the draws of integer generators and of arbitrary standard generators.
* **C104** Sizes in bytes. `bytes` with `index_t` arithmetic, the others with correctly rounded conversions and divisions; a representable number divided by a power of two is representable. Theorems: `Props/` (4, proved). No overflow or underflow can occur in the divisions: sizes lie between 0 and 2^63.
* **C105** Comparison with lists. `equal` as a temporary array built from the list (C34 for two dimensions) and the comparison of C51. Theorems: `Props/` (5, proved). Any element type with its own !=.
* **C106** The Jacobi example. The functions of example 6 written with the modelled expressions, views, statements and reductions (C43, C48, C50, C52, C54, C70); a statement-by-statement evaluation gives the textbook iteration on lists, and the convergence theorems are about that. Theorems: `Props/` (9, proved). every arithmetic with total operations, every build; dominance, convergence and accuracy in exact arithmetic
* **C107** The differential equation example. `ode_solve` as a counted loop over checked subscripts; the closed form by induction, the bounds by the series of the logarithm and by following the rounding factors of each operation. Theorems: `Props/` (5, proved). every arithmetic with total operations; closed form, distance from the exponential function and rounding bounds
* **C108** Reductions depend on the elements only. A relation between two objects (same size, same `un(i)`), shown to be respected by each reduction and closed under element-wise expressions, views and merges; nested loops over rows and columns are flattened into one for the positions of extrema. Theorems: `Props/` (10, proved). identical results for every reduction on objects with the same elements; compensated p-norms for fewer than 2^63-1 elements
* **C109** Laws of slicing. Every named slice is a progression; progressions compose to progressions, and rounding up twice is rounding up once. Theorems: `Props/` (9, proved). all laws for all objects and builds
* **C110** Idioms of the examples. The statements of examples 1-3 as compositions of the modelled operations; what they do is derived from the theorems on selection, removal and assignment, and by a loop invariant for the rotation in place, whose elements overwrite each other. Theorems: `Props/` (7, proved). includes the negative result for the rotation in place
* **C111** Laws of views and expressions. Two texts are the same when both give objects that read as one function of the arrays' contents. Each law is proved once on lists and matrices (selection commutes with map and zip for all twelve kinds of view) and carried to the objects by C43. Theorems: `Props/` (23, proved). Every law for all builds and all later contents of the arrays.
* **C112** Loops over index ranges. The range is a constant sequence expression (C47) iterated by the class of C63; the loop is shown equal to a counting loop for every body by C63's loop theorem, or to run on when the size is -1. Theorems: `Props/` (5, proved). complete for the six functions and every loop body
* **C113** Repetitions in semi-random numbers. Closed form of the generator: 7 x + 13 is multiplied by 8 modulo 10^7; modulo 128 the state is constant after three draws, modulo 5^7 the powers of 8 have period 62500 (one evaluation in the kernel). Carried to the values by induction on the draws, to arrays by C68's effect of filling. Theorems: `Props/` (8, proved). complete
* **C114** Algebraic laws of reductions. A map into a commutative ring (the identity, or the residue modulo 2^bits) turns every result of the number type into the ring result. Each call is first shown to return the ring sum of the images of the elements (induction over the loop), using C43 for the elements of expressions; the laws then are laws of finite sums. Theorems: `Props/` (25, proved).
* **C115** Norms are norms. Each call is first shown (through C43 and C56) to return the mathematical norm of the list of elements, over the reals with the real power and square root; the inequalities are then those of Minkowski, Cauchy-Schwarz and the comparison of power sums. Rounding is the subject of C62, C89 and C102. Theorems: `Props/` (14, proved). Exact real arithmetic; how far rounding can move the results is bounded in C62, C89 and C102.
* **C116** Timers. The clock is an argument (a number of nanoseconds in a long). Histories are lists of restarts and readings; induction over the list. Errors by the standard model of rounding; rounding to nearest is shown to be monotone for every rule for ties. The printed number by C76. Theorems: `Props/` (6, proved). The clock is an argument; what is measured is the difference of its readings.
* **C117** Machine epsilon. epsilon is defined by the precision; numbers of the type are m * 2^e with |m| < 2^p; rounding is any rounding to nearest. Theorems: `Props/` (3, proved). For the precision of the type, with any rounding to nearest.
* **C118** Laws of statements. Spec: `stepwise` writes a list of places one after the other, values computed in the current state. Every statement of the model is shown equal to it (loops in one and two indices). The laws follow by comparing values, by a simulation between states that differ in one array, and by induction over permutations. Theorems: `Props/` (8, proved). For statements whose parts are accepted; rejected ones write nothing (C118_compound_rejected).
* **C119** Rounded reductions respect order. Rounding to nearest is monotone and fixes the numbers of the format; the rest is induction over the running sum. `NearestSqrt` says what a correctly rounded square root is; that it undoes a rounded square is proved from the distance between neighbours. The mean that lies outside its elements is five copies of the double nearest to 1/67, evaluated step by step for every rounding to nearest. Theorems: `Props/` (15, proved). Nearest rounding with gradual underflow for sums, means, inner products and norm1; without underflow for norm2, whose square root is assumed correctly rounded.
* **C120** Backward stability. Spec: `Perturbed g terms v`: v is the exact sum of terms changed by relative errors of at most g. Induction over the running sum, writing every rounding as a factor. The loop of `matvec_prod` is related to that of `dot_prod` through the meaning of the row view. Theorems: `Props/` (6, proved). The sum also with gradual underflow.
* **C121** Statements in several threads. Spec/Threads.lean: a machine with one list of statements per thread; a move computes the value of the next element in a state in which every place holds what it held at some moment since the last write of the thread, and stores it. Invariant: every thread has a private state, reached by running its own steps alone, that agrees with the memory, at all those moments, on the places the thread uses. That the value of an expression depends only on the places of the arrays and views in it is an induction over expressions (Lemmas/Congr.lean). Not modelled: the C++ memory model itself; without a data race it gives sequentially consistent executions, and the model allows more. Theorems: `Props/` (10, proved). The C++ memory model is not modelled: the machine interleaves element assignments and lets the places of one value be read at different moments.
* **C122** Equal expressions can be replaced. Spec: `Replaced E t u`; induction, with one congruence lemma for each kind of node; statements through C118. Theorems: `Props/` (3, proved).
* **C123** No implicit conversions between numbers. Model/Convert.lean: the constructors, conversion functions and operator overloads of the scalar types, implicit conversion sequences and overload resolution of C++ as far as they matter for them, and the built-in operators. Spec/Convert.lean: the rules. Overload resolution is evaluated symbolically (every candidate set, with the type as a variable), and expressions are handled by induction. Values: for two meanings of the language that differ only in implicit conversions the values are equal. Theorems: `Props/` (11, proved). The rules are in Spec/Convert.lean. Concept-constrained templates are modelled as candidates that exist or not; narrowing in braces is left out.
* **C124** Algorithms on iterators. Model/Algorithm.lean: an algorithm is a tree of iterator operations (moves, distances, comparisons, reads, assignments), run on the iterators of Model/Iter.lean; std::shuffle, std::reverse and std::accumulate as such trees, as in libstdc++. Spec: running the tree on a list (`onList`). Simulation by induction over the tree, once for the iterators and once for the reverse iterators (Lemmas/Algorithm.lean). Shuffle: induction over the positions; the last draw is where the last element of the result was, so the draws are determined (Lemmas/Shuffle.lean). Not modelled: the random number generator; the draws are arbitrary. Theorems: `Props/` (9, proved). Algorithms as trees of iterator operations. The numbers drawn by shuffle are arbitrary; equal likelihood of the draws is not modelled.
* **C125** Columns of printed tables. Model/Table.lean: count_digit, max_if_needed and set_width_if_needed for floating-point numbers, with a parameter for log10; the int computations and the conversion to int can be undefined. Spec: largest absolute value, digits before the point. The length of a fixed text from rounding to nearest even; folds for the largest absolute value. Theorems: `Props/` (10, proved). Finite numbers, and the undefined cases; log10 is a parameter with the stated hypotheses. Tables of float128 are left out (std::log10 has no overload for it).
* **C126** Printing random expressions. Model/RandomPrint.lean: the printing loops with an access that draws a number for every element, and the field widths from the two bounds. The loops are compared with those of Model/IO.lean by induction over the number of draws; the widths with those of C75 and C125. Theorems: `Props/` (10, proved). text, outcome, field widths and alignment of printed random expressions
* **C127** Arrays made from two iterators. Model/RangeCtor.lean: the two constructors over the operators of an iterator, with the loop that compares, reads, writes and increments. A lemma describes the first k steps of that loop; the outcomes follow by finding the step at which it stops. Theorems: `Props/` (10, proved). All outcomes for both kinds of iterators, dynamic and fixed arrays.
* **C128** Programs that mix arrays of one and two dimensions. Model/Mixed.lean: one memory for the arrays of both kinds and the member dims_ of the two-dimensional ones; their constructors and the destructor; statements are those of C101 and C100. A simulation by induction on the program: one-dimensional statements by the lemmas of C101 on the flattened state, two-dimensional ones by those of C100, in which one-dimensional arrays count as columns that are left alone. Self move-assignment of a two-dimensional array is excluded (finding 2). Theorems: `Props/` (6, proved). one memory for arrays of both kinds; self move-assignment of a two-dimensional array excluded (C34)
* **C129** Views and expressions kept in variables. Spec/Kept.lean says which elements of the current arrays a view made earlier refers to. By induction on the view: its object is the object of the same view of an array whose sizes are pinned, so the lemmas of C43 apply to it in every later state. The theorems about expressions with two operands and with a value follow from their constructors. Theorems: `Props/` (13, proved). C129_view, C129_read: what a kept view refers to, for every nesting of views and every later state. C129_same_sizes: all expressions while the sizes stay. C129_subscript, C129_shrunk, C129_sum_shrunk: stale elements are not detected. C129_row, C129_block: numbers or positions. C129_fill: assignment of a value. C129_binary, C129_scalar: sizes of kept expressions.
* **C130** Programs that mix expressions, views and changes of size. Spec/EProg.lean gives rules (an inductive relation) for what statements and programs do to lists and matrices; Model/EProg.lean executes them with the modelled functions. Statements: C84 and C118 for assignments, C50 and C57 for member functions, and for operands that are expressions the correctness of built expressions (C43) in the state before the call, because these functions read the operand before they change the array. Programs by induction, loops by induction on the number of passes. Theorems: `Props/` (6, proved). Statements within the limits of Spec.EStmt.Fits: sizes below 2^61, numbers up to 2^31, operations on elements without undefined behaviour, arrays not moved to themselves or to another size, elements of operands of insertions computable.
* **C131** Sorting does not depend on the initial order. Model/SortStmt.lean: the three functions as statements on arrays and views. From C57 and C124 (sorted permutation at the places of the view, nothing else changed) and the uniqueness of the sorted permutation for a linear order. Theorems: `Props/` (5, proved). Every initial order, implementation of std::sort, sequence of random numbers and build; elements of a linear order (floats without nan: C92).
* **C132** Programs steered by numbers and conditions computed from arrays. Model/WProg.lean: numbers, conditions and programs with while, executed with a bound on the number of nested steps (none: not ended yet). Rules for what a program does in Spec/WProg.lean (Tells, Decides, WRuns). By induction on the number of steps and on the derivation, from C43, C51 to C53, C55 and C130. Theorems: `Props/` (12, proved). Programs with numbers, conditions and while loops; sizes and positions not astronomically large.
* **C133** What a rejection says. Model/Diagnose.lean: the assertion macros with their texts, and the checked operators and accesses with the place of each check; the path of the header is a parameter. Forgetting the texts gives the operations of the other models. The text determines reason and place by splitting at the first comma, comma and colon. Theorems: `Props/` (10, proved). all reasons named by the macros; the other checks have no words of their own
* **C134** Statements that may be replaced by each other. No new model code: two statements of C130 are run from the same arrays (Spec/Interchange.lean) and compared, valid and invalid ones, through the meanings of both; the operand is an arbitrary expression. Theorems: `Props/` (16, proved). The relations sampled by tests/array1D.cpp and tests/array2D.cpp for all arrays, positions and operands, including invalid ones.
* **C135** Comparisons with a tolerance on floating-point numbers and the error functions agree. No new model code: the functions of C70 are run on the IEEE numbers of C91. Distances and quotients of finite numbers are reduced to rounded rationals; the array versions follow from the characterization of norm_inf. Theorems: `Props/` (13, proved). IEEE numbers; where the functions differ is proved too
* **C136** What the default tolerance accepts and rejects. The default tolerance is modelled (Model/DefaultTol.lean). The errors of the product, the sum, the difference and the quotient are bounded by the unit roundoff, gradual underflow included; C135 turns the bounds into the answers. Theorems: `Props/` (4, proved). IEEE numbers with overflow and gradual underflow; the sharp bounds 99 and 102
* **C137** Rounding errors with gradual underflow. Every rounding is a small relative error after a correction of at most half of the least positive number; the corrections are carried through the loops as changed coefficients and products. C93 transfers the bounds to IEEE values. Theorems: `Props/` (6, proved). Bounds for every format with a least exponent, transferred to IEEE values; a case in which the additional terms are needed.
* **C138** The accuracy experiment of the examples. The loop is a left fold over the draws. The error bound of stable_polynomial follows from the one of stable_gpolynomial (C62), the reference from C102 in the wide type; the triangle inequality and two roundings give the two-sided bound of the measured error. Theorems: `Props/` (7, proved). All draws, precisions and tie rules; overflow and underflow are excluded in the accuracy part.
* **C139** Rounding errors of expressions. A relation between rounded, exact and magnitude values is carried through the meaning of every expression by induction on its structure: each operation of the library preserves it, and rearranging operations only select related values. C43 transfers the meaning to the elements the code computes. Theorems: `Props/` (4, proved). No overflow or underflow; division by numbers only; reductions other than the product of a matrix and a vector are the subject of other properties.
* **C140** Errors and overflow of expressions in IEEE arithmetic. The expression text is interpreted three times: in IEEE arithmetic, exactly, and in an arithmetic of bounds (Spec/FBound.lean). Each operation preserves the relation that a finite computed number is within the bound of the exact one and that small bounds imply a finite result; induction on the expression carries it through, C43 transfers it to the elements the code computes. Theorems: `Props/` (3, proved). C140_errors for all contents, C140_no_overflow for finite results, C140_eval for the evaluated array; the same expressions as C139, in every binary format with gradual underflow, overflow, infinities and NaN
* **C141** Contraction of products and sums by the compiler. The expression text is interpreted with formulas as elements; a relation says which numbers a compiler may compute for a formula, with or without fused products (Spec/Fused.lean). Exact value, bounds and the uncontracted value are homomorphic images of the formula; induction on the formula shows every permitted computation is within the bounds. The case where contraction is visible is a two-bit format and A = (3/2). Theorems: `Props/` (7, proved). Expressions over the operations of C140. Contraction is a relation between formulas and computed numbers; which products are fused is arbitrary.

## 8. Axioms each property theorem depends on

Output of `#print axioms`, grouped. All names are in the namespace `Spp.Props`.

**none** (12): `C04_iterators`, `C04_random_floats`, `C04_reverse_iterators`, `C04_comparisons`, `C51_not_equal`, `C78_truth_tables`, `C78_no_short_circuit`, `C85_boolean_operators`, `C87_alignment`, `C96_compound_function`, `C103_semi_2D_differs`, `C133_builds`

**propext** (78): `C02_compound`, `C02_inc_dec`, `C04_scalar_compound`, `C04_arrays`, `C04_heap`, `C04_assignments`, `C04_expressions`, `C04_reductions`, `C04_searches`, `C04_pairs`, `C04_compensated`, `C04_polynomials`, `C04_error_free`, `C04_selections`, `C04_updates`, `C04_dereference`, `C04_loops`, `C04_index_loops`, `C04_random`, `C04_random_fill`, `C04_check_overflows`, `C04_remove_overflows`, `C04_fixed`, `C04_fixed2`, `C04_fixed_expressions`, `C04_attach`, `C04_matrix_products`, `C04_lists`, `C04_memory`, `C04_memory2`, `C04_programs`, `C04_handlers`, `C04_std_random`, `C04_std_random_fill`, `C04_random_expressions`, `C04_index_iterators`, `C04_functors`, `C04_conditions`, `C04_mixed_programs`, `C04_algorithms`, `C04_ranges`, `C04_random_all`, `C04_idioms`, `C04_unused_handlers`, `C04_unused_handlers2`, `C08_min_max`, `C09_in_interval`, `C14_check_overflows`, `C27_insert_rejected`, `C29_move_construct`, `C30_resize_and_assign_atomic`, `C30_insert_atomic`, `C31_reverse_statement_smears`, `C34_empty_row_breaks_shape`, `C34_move_construct`, `C37_last_ignored`, `C38_insert_ends`, `C45_thin_operand_reads_outside`, `C49_transpose_dangles`, `C49_matvec_dangles`, `C49_variable_dangles`, `C66_file`, `C67_file`, `C69_only_zero`, `C74_rejected`, `C75_several`, `C78_compare`, `C80_unsigned_literals`, `C81_size_constant`, `C83_generator`, `C83_quad`, `C83_rejected`, `C83_only_zero`, `C96_pow_prod`, `C99_no_request`, `C112_rejected`, `C114_signed`, `C133_condition`

**propext, Quot.sound** (116): `C01_zero_divisor_traps`, `C01_zero_divisor_release`, `C03_negative_shift_traps`, `C03_shift_count_not_checked`, `C04_bounds`, `C04_arrays2`, `C04_row_loops`, `C04_reading`, `C04_operators`, `C04_operator_texts`, `C04_expression_programs`, `C04_steered_programs`, `C04_sorting`, `C04_examples`, `C04_unused_handlers_expr`, `C04_scalar_transparent`, `C04_math_transparent`, `C05_pows_negative`, `C06_factorial_negative`, `C07_binom_rejects`, `C08_signs`, `C08_clamp`, `C08_clamp_rejects`, `C10_min_exponent`, `C13_negative`, `C15_range_unique`, `C16_rejected`, `C24_resize`, `C24_resize_rejected`, `C29_construct`, `C29_construct_size`, `C29_construct_size_rejected`, `C29_move_assign_rejected`, `C29_swap`, `C29_resize_and_assign`, `C29_resize_and_assign_move`, `C31_resize_and_assign_safe`, `C31_reverse_smears`, `C38_insert_rejected`, `C41_negative_dimensions`, `C42_outcome`, `C48_inner_exact`, `C48_matvec_mismatch`, `C49_construct`, `C49_stored`, `C49_immediate`, `C49_variable`, `C49_statement`, `C52_left_to_right`, `C52_exact`, `C52_mean_empty`, `C52_no_wrong_result`, `C52_sum_unsigned`, `C53_always_an_element`, `C53_nan`, `C54_quantifiers`, `C54_short_circuit`, `C54_tests`, `C54_finite`, `C55_empty`, `C56_exponent`, `C56_empty`, `C62_norm_edges`, `C63_rejected`, `C64_positions`, `C66_scalar`, `C68_rejected`, `C71_for_each_in`, `C72_blas_array`, `C75_file`, `C77_compound`, `C81_release_mismatch`, `C81_invalid_statement`, `C82_negative_rejected`, `C82_release_negative`, `C83_arrays_not0`, `C83_bool`, `C83_quad_outside`, `C83_scalar`, `C83_arrays`, `C83_expression`, `C83_not0`, `C85_compound_function`, `C86_gap_unary`, `C86_gap_binary`, `C86_gap_second`, `C86_gap_tensor`, `C86_gap_slice`, `C89_alignment`, `C99_enough_memory`, `C100_enough_memory`, `C101_start`, `C101_frame`, `C103_construct`, `C103_twice`, `C103_std`, `C106_rejected`, `C107_rejected`, `C108_quantifiers`, `C108_traversals`, `C113_draws`, `C113_arrays`, `C114_exact`, `C121_arrays`, `C121_rows`, `C123_passing`, `C127_other_object`, `C127_fixed_rejected`, `C128_start`, `C128_frame`, `C129_binary`, `C129_scalar`, `C130_own_first_row`, `C132_one_outcome`, `C138_report`, `C138_throws`

**propext, Classical.choice, Quot.sound** (871): `C01_division_result`, `C01_min_over_minus_one`, `C01_checked_ub_iff`, `C02_add`, `C02_sub`, `C02_mul`, `C02_neg`, `C02_ub_iff`, `C02_cast`, `C03_shift`, `C04_literals`, `C04_quad_and_files`, `C04_access_transparent`, `C05_pows_signed`, `C05_pows_unsigned`, `C06_factorial`, `C07_binom`, `C07_binom_overflow`, `C07_binom_full_claim_false`, `C08_abss`, `C09_in_cond_range`, `C09_ranges`, `C09_values`, `C10_fast_pows`, `C11_two_sum`, `C12_two_prod`, `C12_no_underflow`, `C13_second_order`, `C13_exact`, `C13_in_bounds`, `C14_seqN_accepted`, `C14_seqN_in_range`, `C14_seqN_rejected`, `C14_seqN_outcome`, `C14_accepted_slices_in_range`, `C14_index_vector`, `C14_implicit_vector_sequence`, `C15_seq_selects`, `C15_seq_rejected`, `C16_all_even_odd_reverse`, `C16_skipN`, `C16_firstN_lastN`, `C17_complement`, `C17_rejected`, `C17_partition`, `C18_last_remove`, `C18_last_arithmetic`, `C18_last_minus`, `C19_requests`, `C19_nested_slices`, `C20_fill`, `C20_list`, `C20_list_rejected`, `C20_list2`, `C20_list2_rejected`, `C20_assign`, `C20_assign_mismatch`, `C20_slice_of_array`, `C20_sizes_kept`, `C21_subscript`, `C21_at`, `C21_at_unguarded`, `C21_subscript_write`, `C21_at_write`, `C21_un`, `C21_subscript2`, `C21_at2`, `C21_un2`, `C21_write2`, `C22_ownership`, `C22_no_undefined_behaviour`, `C22_everything_released`, `C22_contents`, `C22_contents_modify`, `C22_failed_statement`, `C22_failures`, `C23_valid_statement`, `C23_history`, `C23_history_valid`, `C25_remove`, `C25_remove_rejected`, `C25_remove_check_overflows`, `C25_remove_outcome`, `C25_remove_front_back`, `C25_remove_front_back_rejected`, `C25_remove_last`, `C25_remove_last_rejected`, `C26_remove_indices`, `C26_remove_indices_rejected`, `C27_insert_array`, `C27_insert`, `C27_insert_ends`, `C28_insert_remove`, `C28_remove_insert`, `C29_copy_assign`, `C29_copy_not_linked`, `C29_move_assign`, `C30_invalid_assignment`, `C30_element_traps`, `C30_assign_element_traps`, `C30_invalid_statement`, `C31_pointwise`, `C31_arrays_select_once`, `C31_same_as_temporary`, `C31_same_position`, `C32_flatten_unflatten`, `C32_unflatten_flatten`, `C33_linear_is_two_index`, `C33_two_index_is_linear`, `C34_construct_size`, `C34_construct_size_rejected`, `C34_construct_list`, `C34_construct_list_rejected`, `C34_assign_list`, `C34_assign_list_rejected`, `C34_valid_statement`, `C34_invalid_statement`, `C34_history`, `C34_shape`, `C34_history_valid`, `C34_self_move_breaks_shape`, `C35_resize_preserve`, `C35_resize_reset`, `C35_resize_reinterpret`, `C35_resize_rejected`, `C36_remove_rows`, `C36_remove_cols`, `C36_remove_rejected`, `C36_remove_special`, `C36_remove_rows_indices`, `C36_remove_cols_indices`, `C36_remove_indices_rejected`, `C37_remove_last`, `C37_remove_last_empty`, `C38_resize_and_assign`, `C38_insert_rows`, `C38_insert_cols`, `C38_insert_into_empty`, `C38_insert_row`, `C38_insert_col`, `C38_insert_row_into_empty`, `C38_insert_row_rejected`, `C39_remove_inserted_rows`, `C39_remove_inserted_cols`, `C39_remove_inserted_row_col`, `C40_row`, `C40_col`, `C40_diag`, `C40_block`, `C40_blockN`, `C40_line_rejected`, `C40_block_rejected`, `C40_blockN_rejected`, `C40_diag_min_overflows`, `C41_view2D_size`, `C41_view2D_vector`, `C41_view2D_matrix`, `C41_view1D`, `C41_round_trip`, `C42_slice2`, `C43_accepted`, `C43_reads`, `C43_no_outside_access`, `C43_eval_1D`, `C43_eval_2D`, `C43_elementwise`, `C43_mismatch`, `C43_subscript`, `C44_transpose`, `C44_involution`, `C44_eval`, `C45_merge`, `C45_associative`, `C45_any_number`, `C45_scalars_after`, `C45_scalars_before`, `C45_side_by_side`, `C45_on_top`, `C45_mismatch`, `C46_exclude`, `C46_same_as_remove`, `C46_rejected`, `C46_exclude_last`, `C46_last_minus_k_false`, `C47_sequence`, `C47_irange`, `C47_linspace`, `C47_linspace_one`, `C47_unit`, `C47_identity`, `C47_const`, `C47_rejected`, `C48_reduce`, `C48_broadcast`, `C48_tensor`, `C48_matvec`, `C50_compound`, `C50_compound_scalar`, `C50_repeated`, `C50_mismatch`, `C51_equal`, `C51_equal_exact`, `C51_equivalence`, `C52_sum_signed`, `C52_dot`, `C52_dot_exact`, `C52_dot_mismatch`, `C53_extrema`, `C53_index_1D`, `C53_index_2D`, `C54_pairwise`, `C54_mismatch`, `C55_polynomial`, `C55_no_wrong_result`, `C55_gpolynomial`, `C55_polynomial_powers`, `C55_rejected`, `C56_norm_inf`, `C56_norm1`, `C56_norm2`, `C56_norm_lp`, `C57_sort`, `C57_increasing`, `C58_compensated`, `C58_exact`, `C58_empty_mean`, `C59_bound`, `C59_gamma`, `C60_blocks`, `C60_exact`, `C60_bound`, `C61_dot_compensated`, `C61_dot_bound`, `C61_exact`, `C61_edges`, `C61_semi_dot`, `C61_prod_bound`, `C61_dot_bound_unlimited`, `C62_gpolynomial`, `C62_polynomial_powers`, `C62_polynomial`, `C62_too_many`, `C62_edges`, `C62_bound`, `C62_norms`, `C62_norm_lp`, `C63_loop`, `C63_visits`, `C63_assigns`, `C63_arithmetic`, `C63_laws`, `C63_access`, `C63_reverse`, `C64_loop`, `C64_pairs`, `C64_rejected`, `C64_degenerate`, `C64_ranges`, `C65_rows`, `C65_cols`, `C65_loop`, `C66_every_text`, `C66_outcome`, `C66_integers`, `C66_malformed`, `C66_out_of_range`, `C66_dropped`, `C66_dropped_sign`, `C67_rows`, `C67_no_rows`, `C67_malformed_first`, `C67_bad_row`, `C67_long_row`, `C67_integers`, `C68_range`, `C68_draws`, `C68_sequence`, `C68_bits`, `C68_too_wide`, `C68_array`, `C68_expression`, `C68_constant`, `C69_returns`, `C69_without_zero`, `C69_even_size`, `C69_default`, `C69_never`, `C69_five`, `C69_array_never`, `C70_abs`, `C70_rel`, `C70_laws`, `C70_zero`, `C70_arrays`, `C70_errors`, `C70_max_abs`, `C70_max_rel`, `C70_rejected`, `C70_rounded`, `C71_for_each`, `C73_sum`, `C73_dot`, `C74_range`, `C74_value`, `C75_column`, `C75_row`, `C75_row_detailed`, `C75_column_detailed`, `C75_table`, `C75_table_detailed`, `C75_width`, `C75_aligned`, `C75_most_negative`, `C75_read_back`, `C75_read_back_table`, `C75_file_round_trip`, `C75_scalar`, `C75_booleans`, `C75_booleans_read`, `C75_indexes`, `C76_scientific`, `C76_fixed`, `C76_nearest_scientific`, `C76_nearest_fixed`, `C76_reads`, `C76_number`, `C76_read_back`, `C76_read_back_table`, `C76_read_back_fixed`, `C76_double`, `C76_float_lossy`, `C76_long_double_lossy`, `C76_quad_lossy`, `C76_enough_digits`, `C77_bitwise`, `C77_bits_determine`, `C77_complement`, `C78_guard_fails`, `C79_int_to_int`, `C79_bool`, `C79_float_to_int`, `C79_int_to_float`, `C79_float_to_float`, `C79_widen`, `C79_round_trip`, `C79_sizes`, `C80_signed_literals`, `C80_named`, `C81_construct`, `C81_construct_rejected`, `C81_valid_statement`, `C81_history`, `C81_construct2`, `C81_construct2_rejected`, `C81_valid_statement2`, `C81_invalid_statement2`, `C81_history2`, `C82_attach1D`, `C82_attach2D`, `C82_write`, `C82_fill`, `C82_too_long`, `C83_array`, `C83_aliased_bounds`, `C83_array_not0`, `C83_array_not0_returns`, `C84_view`, `C84_expression`, `C84_element`, `C84_statement`, `C84_program`, `C84_valid_program`, `C85_operators`, `C85_outcome_unique`, `C85_unary_operators`, `C85_arrays`, `C85_array_and_number`, `C85_unary`, `C85_boolean`, `C85_compound`, `C85_compound_number`, `C86_compiles`, `C86_rejects`, `C86_no_iterators`, `C86_accepts`, `C86_nested`, `C86_named`, `C86_stored`, `C86_gaps`, `C87_aligned`, `C87_flag`, `C88_stable`, `C88_transfer`, `C88_resize_same`, `C88_distinct`, `C89_map`, `C89_temporaries`, `C89_product`, `C89_mismatch`, `C89_mismatch_unchecked`, `C89_new`, `C89_exact`, `C89_associative`, `C89_rounded`, `C90_exact`, `C90_faithful`, `C90_nearly_nearest`, `C90_not_nearest`, `C90_long_double`, `C90_quad`, `C90_quad_octal`, `C90_quad_separator`, `C91_compare`, `C91_compare_finite`, `C91_abs`, `C91_abs_zero`, `C91_sign`, `C91_min_max`, `C91_clamp`, `C91_interval`, `C91_inv`, `C91_within_abs`, `C91_within_rel`, `C91_errors`, `C91_add`, `C91_sub`, `C91_mul`, `C91_div`, `C91_fma`, `C91_sqrt`, `C91_neg`, `C91_closed`, `C91_difference`, `C91_neutral`, `C91_of_index`, `C92_nan_blocks`, `C92_nan`, `C92_nan_dot`, `C92_extrema`, `C92_norm_inf`, `C92_max_abs_error`, `C92_infinite`, `C92_overflow`, `C92_sums_differ`, `C92_tests`, `C92_sort_order`, `C92_sort`, `C93_if_finite`, `C93_if_finite_dot`, `C93_sum_bounds`, `C93_dot_bounds`, `C93_if_finite_more`, `C93_if_finite_polynomial`, `C93_if_finite_norm2`, `C93_norm1_bound`, `C94_precision`, `C94_untouched`, `C94_notation`, `C94_negative`, `C94_wraps`, `C94_texts`, `C94_appends`, `C94_flags`, `C94_builtin_sign`, `C94_builtin_float_sign`, `C94_builtin_digits`, `C94_base`, `C94_print`, `C95_scientific`, `C95_fixed`, `C95_cut_fixed`, `C95_cut_scientific`, `C95_outcome`, `C95_stream`, `C95_read`, `C95_bad_word`, `C95_end`, `C95_failed`, `C95_read_back`, `C95_array`, `C95_array_bad`, `C96_operators`, `C96_operator_unique`, `C96_unary_operators`, `C96_arrays`, `C96_array_and_number`, `C96_unary`, `C96_functions`, `C96_two_prod`, `C96_compound`, `C96_compound_number`, `C96_exp_int`, `C96_pow_int`, `C96_pow_int_rounded`, `C96_fast_pow_int`, `C97_error`, `C97_error_negative`, `C97_exact`, `C97_exact_integers`, `C97_squares_cubes`, `C97_integer_squares_cubes`, `C97_sign`, `C97_nan`, `C97_negative`, `C97_finite`, `C97_error_large`, `C97_no_overflow`, `C98_finite`, `C98_special`, `C98_held`, `C98_laws`, `C99_valid_statement`, `C99_invalid_statement`, `C99_history`, `C100_valid_statement`, `C100_invalid_statement`, `C100_history`, `C100_requests`, `C101_program`, `C101_defined`, `C101_nothing_leaked`, `C101_strong_guarantee`, `C102_norm_lp`, `C102_norm_lp_scaled`, `C102_norm_lp_any`, `C102_norm_lp_zero`, `C102_stable_norm_lp`, `C102_norm_lp_cube`, `C102_prod`, `C102_mean`, `C102_norm1`, `C102_norm1_scaled`, `C102_norm2`, `C102_stable_norm2`, `C102_polynomial`, `C102_gpolynomial`, `C102_polynomial_powers`, `C102_norm2_scaled`, `C102_stable_norm2_scaled`, `C102_stable_mean`, `C102_stable_norm1`, `C102_stable_norm1_scaled`, `C103_construct_2D`, `C103_assign`, `C103_assign_2D`, `C103_element`, `C103_element_2D`, `C103_not0`, `C103_not0_2D`, `C103_not0_ends`, `C103_semi`, `C103_semi_2D`, `C103_semi_not0`, `C103_semi_not0_2D`, `C103_rejected`, `C103_std_2D`, `C103_std_not0`, `C103_std_rejected`, `C104_bytes`, `C104_scaled`, `C104_exact`, `C104_error`, `C105_equal`, `C105_equal_exact`, `C105_equal_2D`, `C105_equal_exact_2D`, `C105_ragged`, `C106_outcome`, `C106_empty`, `C106_raised`, `C106_exact`, `C106_converges`, `C106_returns`, `C106_accuracy`, `C106_dominant`, `C107_outcome`, `C107_exact`, `C107_converges`, `C107_rounding`, `C108_sums`, `C108_norms`, `C108_stable`, `C108_stable_lp`, `C108_pairs`, `C108_positions`, `C108_view`, `C108_expressions`, `C109_skip_skip`, `C109_even_even`, `C109_reverse_reverse`, `C109_first_first`, `C109_reverse_first`, `C109_odd`, `C109_seqN_seqN`, `C109_seq_seqN`, `C109_complement`, `C110_remove_where`, `C110_remove_interval`, `C110_rotate`, `C110_rotate_rejected`, `C110_rotate_in_place_fills`, `C110_odd_from_even`, `C110_odd_from_even_rejected`, `C111_view_unary`, `C111_view_binary`, `C111_view_scalar`, `C111_transpose_elementwise`, `C111_merge_elementwise`, `C111_transpose_lines`, `C111_transpose_slices`, `C111_transpose_block`, `C111_transpose_merge`, `C111_transpose_reduce`, `C111_transpose_bcast`, `C111_rows_cols`, `C111_block_block`, `C111_block_lines`, `C111_merge_parts`, `C111_reverse_merge`, `C111_append_merge`, `C111_exclude_merge`, `C111_slice_reduce`, `C111_slice_matvec`, `C111_matvec_merge`, `C111_bcast_lines`, `C111_identity`, `C112_range`, `C112_loop`, `C112_release_runs_on`, `C112_neighbours`, `C113_repeats`, `C113_bits`, `C113_seeds`, `C113_array`, `C113_sizes`, `C113_twins`, `C114_modulo`, `C114_unsigned_reading`, `C114_sum_add`, `C114_sum_scalar`, `C114_sum_merge`, `C114_sum_merge2`, `C114_sum_reshaped`, `C114_sum_permuted`, `C114_sum_parts`, `C114_complementary`, `C114_sumFn`, `C114_sum_reduce`, `C114_dot_sum`, `C114_dot_comm`, `C114_dot_linear`, `C114_dot_unit`, `C114_matvec_linear`, `C114_adjoint`, `C114_matvec_identity`, `C114_sum_tensor`, `C114_sum_special`, `C114_prod`, `C114_prod_empty`, `C115_returns`, `C115_definite`, `C115_scale`, `C115_triangle`, `C115_distance`, `C115_dot`, `C115_compare`, `C115_one_two`, `C115_monotone`, `C115_rearranged`, `C115_transposed`, `C115_permuted`, `C115_merge`, `C115_scaled`, `C116_wall_time`, `C116_history`, `C116_error`, `C116_sign`, `C116_monotone`, `C116_macro`, `C117_next`, `C117_added`, `C117_relative`, `C118_in_order`, `C118_compound`, `C118_compound_scalar`, `C118_compound_rejected`, `C118_self`, `C118_overwritten`, `C118_swap`, `C118_permuted`, `C119_sum_monotone`, `C119_sum_grows`, `C119_sum_covers`, `C119_mean_monotone`, `C119_mean_two`, `C119_mean_outside`, `C119_dot_monotone`, `C119_dot_self`, `C119_norm_inf`, `C119_norm1_monotone`, `C119_norm1_covers`, `C119_norm2_monotone`, `C119_sqrt_square`, `C119_norm2_one`, `C119_norm2_covers`, `C120_sum`, `C120_sum_any`, `C120_dot`, `C120_mean`, `C120_matvec_is_dot`, `C120_matvec`, `C121_isolated`, `C121_untouched`, `C121_same_end`, `C121_progress`, `C121_finite`, `C121_completes`, `C121_sequential`, `C121_race`, `C122_replace`, `C122_equivalence`, `C122_statement`, `C123_binary`, `C123_no_mixing`, `C123_no_builtin`, `C123_unary`, `C123_make`, `C123_assignment`, `C123_typing`, `C123_conversions`, `C123_strict`, `C123_logic`, `C124_run`, `C124_legal`, `C124_read`, `C124_accumulate`, `C124_reverse`, `C124_sort`, `C124_shuffle`, `C124_uniform`, `C124_address`, `C125_width`, `C125_undefined`, `C125_fixed_text`, `C125_aligned`, `C125_sticks_out`, `C125_scientific_text`, `C125_log`, `C125_count`, `C125_table`, `C125_booleans`, `C126_text`, `C126_text_2D`, `C126_outcome`, `C126_outcome_2D`, `C126_width`, `C126_aligned`, `C126_float_width`, `C126_float_aligned`, `C126_semi`, `C126_twice`, `C127_range`, `C127_reverse`, `C127_outcome`, `C127_outcome_reverse`, `C127_fixed`, `C127_fixed_release`, `C127_backwards_release`, `C127_whole`, `C128_program`, `C128_defined`, `C128_nothing_leaked`, `C128_strong_guarantee`, `C129_same_sizes`, `C129_unrelated`, `C129_view`, `C129_read`, `C129_fresh`, `C129_subscript`, `C129_shrunk`, `C129_row`, `C129_block`, `C129_fill`, `C129_sum_shrunk`, `C130_program`, `C130_valid_program`, `C130_no_ub`, `C130_frame`, `C130_shape`, `C131_canonical`, `C131_in_order`, `C131_after`, `C131_opposite`, `C131_rank`, `C132_tolerance`, `C132_tolerance_not`, `C132_tolerance_float`, `C132_program`, `C132_valid_program`, `C132_no_ub`, `C132_frame`, `C132_shape`, `C132_while`, `C132_terminates`, `C132_forever`, `C133_outcome`, `C133_division`, `C133_shift`, `C133_element`, `C133_element2`, `C133_files`, `C133_tells`, `C133_config`, `C134_remove`, `C134_remove_ends`, `C134_remove_last`, `C134_remove_indexes`, `C134_insert`, `C134_insert_ends`, `C134_insert_value`, `C134_remove_rows_indexes`, `C134_remove_rows`, `C134_remove_rows_ends`, `C134_remove_cols_ends`, `C134_insert_rows`, `C134_insert_cols`, `C134_insert_row`, `C134_insert_col`, `C134_nothing_differs`, `C135_abs_symmetric`, `C135_rel_symmetric`, `C135_reflexive`, `C135_monotone`, `C135_abs_exact`, `C135_rel_error`, `C135_max_abs`, `C135_same_abs`, `C135_max_rel`, `C135_rel_arrays`, `C135_rel_converse_fails`, `C135_infinite_tolerance`, `C135_nan_differs`, `C136_abs`, `C136_rel`, `C136_abs_arrays`, `C136_rel_arrays`, `C137_polynomial`, `C137_dot`, `C137_mean`, `C137_stable_dot`, `C137_ieee`, `C137_lost`, `C138_max`, `C138_stable_polynomial`, `C138_iteration`, `C138_exact`, `C138_nan`, `C139_elements`, `C139_relative`, `C139_exact`, `C139_eval`, `C140_errors`, `C140_no_overflow`, `C140_eval`, `C141_errors`, `C141_no_overflow`, `C141_visible`, `C141_dot`, `C141_polynomial`, `C141_norm2`, `C141_root`
