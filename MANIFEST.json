{
 "claims": [
  {
   "property": "C01",
   "status": "proved",
   "theorems": [
    "Verif.Props.C01"
   ],
   "note": "1D, 2D, 3D; every state reachable by a history inside the contract; checked and unchecked build"
  },
  {
   "property": "C02",
   "status": "proved",
   "theorems": [
    "Verif.Props.C02"
   ],
   "note": "1D, 2D, 3D; every empty or allocated array; accepted exactly for Valid accesses, otherwise the first failing check"
  },
  {
   "property": "C03",
   "status": "proved",
   "theorems": [
    "Verif.Props.C03"
   ],
   "note": "every state of object and memory, no precondition"
  },
  {
   "property": "C04",
   "status": "proved",
   "theorems": [
    "Verif.Props.C04"
   ],
   "note": "any half dimension of a 1D, 2D or 3D array"
  },
  {
   "property": "C05",
   "status": "proved",
   "theorems": [
    "Verif.Props.C05"
   ],
   "note": ""
  },
  {
   "property": "C06",
   "status": "partial",
   "theorems": [
    "Verif.Props.C06_partial",
    "Verif.Props.C06_safe",
    "Verif.Props.C06_false",
    "Verif.Props.C06_false_d3"
   ],
   "note": "Refinement for every history inside the contract, every number of arrays and every pattern of allocation failures (C06_partial). The machine needs a third state for 2D/3D arrays whose alloc failed half way; element access in that state is undefined behaviour even in the checked build (C06_false, C06_false_d3), so the claim as stated is false. C06_safe: without memory failures or with 1D arrays only, two states suffice and every well typed call is covered."
  },
  {
   "property": "C07",
   "status": "partial",
   "theorems": [
    "Verif.Props.C07_partial",
    "Verif.Props.C07_false",
    "Verif.Props.C07_exact",
    "Verif.Props.C07_exact_iff",
    "Verif.Props.C07_exact_fits"
   ],
   "note": "alloc on non-empty and clear on empty: all sizes. C07_exact: for all unsigned arguments the request is refused (nothing changed), undefined, or passes exactly as the specification sizeVerdict says; C07_exact_iff: the claim holds for a request exactly if sizeVerdict refuses it; C07_exact_fits: with the points of each dimension in int the verdict is the claim. False beyond (C07_false): virtual points whose sum wraps to zero pass, sums that leave int are undefined."
  },
  {
   "property": "C08",
   "status": "proved",
   "theorems": [
    "Verif.Props.C08"
   ],
   "note": ""
  },
  {
   "property": "C09",
   "status": "partial",
   "theorems": [
    "Verif.Props.C09_partial",
    "Verif.Props.C09_d1",
    "Verif.Props.C09_false",
    "Verif.Props.C09_false_d3",
    "Verif.Props.C09_exact"
   ],
   "note": "C09_exact gives the outcome of every alloc on an empty array whose shape has points: it returns if and only if all requests are granted; a refused first request leaves the array empty; when a later request is refused (2D/3D only) the claim is false: the array reports the requested size, refuses every later alloc, and clear brings it back to the empty state. C09_false, C09_false_d3 are concrete."
  },
  {
   "property": "C10",
   "status": "partial",
   "theorems": [
    "Verif.Props.C10_partial",
    "Verif.Props.C10_partial_default",
    "Verif.Props.C10_false",
    "Verif.Props.C10_exact"
   ],
   "note": "No double free ever. C10_exact: when all arrays are destroyed a block is left if and only if somewhere in the history a sizing constructor was granted some of its memory and refused the rest (C10_false is one); so nothing is left if memory never runs out, with 1D arrays only, or without sizing constructors."
  },
  {
   "property": "C11",
   "status": "partial",
   "theorems": [
    "Verif.Props.C11_reports",
    "Verif.Props.C11_beyond",
    "Verif.Props.C11_all",
    "Verif.Props.C11_partial",
    "Verif.Props.C11_false",
    "Verif.Props.C11_wrap",
    "Verif.Props.C11_false_alias",
    "Verif.Props.C11_never",
    "Verif.Props.C11_exact"
   ],
   "note": "C11_all: for all unsigned arguments whose shape has points, an alloc that returned has provided the storage and the sizes asked for exactly if the points of every dimension are an int and all elements together an unsigned; so the claim is false exactly beyond these two bounds. C11_exact, C11_never, C11_beyond are its parts; C11_reports: for all unsigned arguments the sizes reported are zero or the arguments read as int. Witnesses: 65536 x 65536 points wrap to zero (C11_false), every multiple of 2^32 leaves the array empty (C11_wrap), seven components of 2^30 points share elements (C11_false_alias)."
  },
  {
   "property": "C12",
   "status": "proved",
   "theorems": [
    "Verif.Props.C12_d1",
    "Verif.Props.C12_d2",
    "Verif.Props.C12_d3"
   ],
   "note": "1D, 2D, 3D, every extent that fits int"
  },
  {
   "property": "C13",
   "status": "proved",
   "theorems": [
    "Verif.Props.C13_d1",
    "Verif.Props.C13_d2",
    "Verif.Props.C13_d3"
   ],
   "note": "1D, 2D, 3D, every extent that fits int, every tag and dimension"
  },
  {
   "property": "C14",
   "status": "proved",
   "theorems": [
    "Verif.Props.C14_d1",
    "Verif.Props.C14_d2",
    "Verif.Props.C14_d3"
   ],
   "note": "1D, 2D, 3D"
  },
  {
   "property": "C15",
   "status": "proved",
   "theorems": [
    "Verif.Props.C15_d1",
    "Verif.Props.C15_d2",
    "Verif.Props.C15_d3"
   ],
   "note": "1D, 2D, 3D"
  },
  {
   "property": "C16",
   "status": "proved",
   "theorems": [
    "Verif.Props.C16_d1",
    "Verif.Props.C16_d2",
    "Verif.Props.C16_d3"
   ],
   "note": "1D, 2D, 3D; the only failure is signed overflow"
  },
  {
   "property": "C17",
   "status": "partial",
   "theorems": [
    "Verif.Props.C17_exact_d1",
    "Verif.Props.C17_exact_d2",
    "Verif.Props.C17_exact_d3",
    "Verif.Props.C17_false_d1",
    "Verif.Props.C17_d1_partial",
    "Verif.Props.C17_false_d2",
    "Verif.Props.C17_d2_partial",
    "Verif.Props.C17_false_d3",
    "Verif.Props.C17_d3_partial"
   ],
   "note": "False as stated for ranges with an empty dimension: C17_false_d* is the witness. The partial theorems give the equivalence for ranges with a point in every dimension, and symmetry and soundness for all ranges. C17_exact_*: for all ranges whose ends are int values, exactly when the answer is true and exactly when it is wrong."
  },
  {
   "property": "C18",
   "status": "proved",
   "theorems": [
    "Verif.Props.C18_d1",
    "Verif.Props.C18_d2",
    "Verif.Props.C18_d3"
   ],
   "note": "1D, 2D, 3D, checked and unchecked build"
  },
  {
   "property": "C19",
   "status": "proved",
   "theorems": [
    "Verif.Props.C19_d1",
    "Verif.Props.C19_d2",
    "Verif.Props.C19_d3"
   ],
   "note": "1D, 2D, 3D; any state, any function, including throwing ones"
  },
  {
   "property": "C20",
   "status": "proved",
   "theorems": [
    "Verif.Props.C20_n",
    "Verif.Props.C20_n_wrap",
    "Verif.Props.C20_d1_n",
    "Verif.Props.C20_d2_n",
    "Verif.Props.C20_d3_n",
    "Verif.Props.C20_d2_axis1",
    "Verif.Props.C20_d2_axis1_reject",
    "Verif.Props.C20_d2_axis1_n",
    "Verif.Props.C20_d3_axis2",
    "Verif.Props.C20_d3_axis2_reject",
    "Verif.Props.C20_d3_axis2_n",
    "Verif.Props.C20_d3_axis1",
    "Verif.Props.C20_d3_axis1_reject",
    "Verif.Props.C20_d3_axis1_n"
   ],
   "note": "PD_For_N, PD_For_N_1D/2D/3D and the axis loops of 2D and 3D; invalid axes rejected; wrap-around of an inverted component interval described by C20_n_wrap"
  },
  {
   "property": "C21",
   "status": "partial",
   "theorems": [
    "Verif.Props.C21_false_d1",
    "Verif.Props.C21_d1_partial",
    "Verif.Props.C21_false_d2",
    "Verif.Props.C21_d2_partial",
    "Verif.Props.C21_false_d3",
    "Verif.Props.C21_d3_partial",
    "Verif.Props.C21_exact_d1",
    "Verif.Props.C21_exact_d2",
    "Verif.Props.C21_exact_d3"
   ],
   "note": "False: a negative size gives undefined behaviour (C21_false_*), so only zero sizes run no iteration (partial). C21_exact_*: every range - ends out of int, first non-positive size zero, first non-positive size negative - for every function that throws nothing."
  },
  {
   "property": "C22",
   "status": "proved",
   "theorems": [
    "Verif.Props.C22_n",
    "Verif.Props.C22_d1",
    "Verif.Props.C22_d1_n",
    "Verif.Props.C22_d2",
    "Verif.Props.C22_d2_n",
    "Verif.Props.C22_d3",
    "Verif.Props.C22_d3_n",
    "Verif.Props.C22_d2_axis1",
    "Verif.Props.C22_d2_axis1_n",
    "Verif.Props.C22_d3_axis2",
    "Verif.Props.C22_d3_axis2_n",
    "Verif.Props.C22_d3_axis1",
    "Verif.Props.C22_d3_axis1_n"
   ],
   "note": "all PD_Reduce templates"
  },
  {
   "property": "C23",
   "status": "partial",
   "theorems": [
    "Verif.Props.C23_false_d1",
    "Verif.Props.C23_n_partial",
    "Verif.Props.C23_d1_partial",
    "Verif.Props.C23_d1_n_partial",
    "Verif.Props.C23_d2_partial",
    "Verif.Props.C23_d2_n_partial",
    "Verif.Props.C23_d3_partial",
    "Verif.Props.C23_d3_n_partial",
    "Verif.Props.C23_d2_axis1_partial",
    "Verif.Props.C23_d2_axis1_n_partial",
    "Verif.Props.C23_d3_axis2_partial",
    "Verif.Props.C23_d3_axis2_n_partial",
    "Verif.Props.C23_d3_axis1_partial",
    "Verif.Props.C23_d3_axis1_n_partial"
   ],
   "note": "False as stated: the old value enters twice (C23_false_d1). The partial theorems give the exact result for every initial value and the claim for initial value 0 (sum) and 1 (product)."
  },
  {
   "property": "C24",
   "status": "partial",
   "theorems": [
    "Verif.Props.C24_n_none",
    "Verif.Props.C24_d1_none",
    "Verif.Props.C24_d1_n_none",
    "Verif.Props.C24_d2_none",
    "Verif.Props.C24_d2_n_none",
    "Verif.Props.C24_d3_none",
    "Verif.Props.C24_d3_n_none",
    "Verif.Props.C24_d2_axis1_none",
    "Verif.Props.C24_d2_axis1_n_none",
    "Verif.Props.C24_d3_axis2_none",
    "Verif.Props.C24_d3_axis2_n_none",
    "Verif.Props.C24_d3_axis1_none",
    "Verif.Props.C24_d3_axis1_n_none",
    "Verif.Props.C24_n_partial",
    "Verif.Props.C24_d1_partial",
    "Verif.Props.C24_d1_n_partial",
    "Verif.Props.C24_d2_partial",
    "Verif.Props.C24_d2_n_partial",
    "Verif.Props.C24_d3_partial",
    "Verif.Props.C24_d3_n_partial",
    "Verif.Props.C24_d2_axis1_partial",
    "Verif.Props.C24_d2_axis1_n_partial",
    "Verif.Props.C24_d3_axis2_partial",
    "Verif.Props.C24_d3_axis2_n_partial",
    "Verif.Props.C24_d3_axis1_partial",
    "Verif.Props.C24_d3_axis1_n_partial",
    "Verif.Props.C24_false_d1"
   ],
   "note": "MAX, MIN and MIN_ABS hold; MAX_ABS holds unless the range is empty and the variable negative (C24_false_d1); then the variable becomes its absolute value (C24_*_none)."
  },
  {
   "property": "C25",
   "status": "partial",
   "theorems": [
    "Verif.Props.C25_partial",
    "Verif.Props.C25_anchors",
    "Verif.Props.C25_refused",
    "Verif.Props.C25_false",
    "Verif.Props.C25_exact",
    "Verif.Props.C25_claim"
   ],
   "note": "All overloads, 1D/2D/3D, both builds, zones inside the arrays that meet in every dimension (C25_partial). C25_exact: for all zones inside the arrays, exactly when a checked call throws, and what it writes otherwise; C25_claim: exactly when the written points are those of the claim. False for an empty source zone strictly inside a half located target (C25_false: a point is written). Zones without a common point are refused in checked builds (C25_refused); C30_exact is the answer for builds without checks."
  },
  {
   "property": "C26",
   "status": "proved",
   "theorems": [
    "Verif.Props.C26"
   ],
   "note": "Any arguments, any build, any state of the target (empty, allocated, half allocated); also when the call throws."
  },
  {
   "property": "C27",
   "status": "partial",
   "theorems": [
    "Verif.Props.C27_partial",
    "Verif.Props.C27_false",
    "Verif.Props.C27_false_alias",
    "Verif.Props.C27_order"
   ],
   "note": "Checked build: zones inside the array and anchors in machine range; C25_exact says exactly when such a self copy throws and what it does otherwise. Outside: undefined behaviour (C27_false) or a result that depends on the loop order (C27_false_alias). C27_order: without checks, inside the contract, the effect of any self copy whose zones meet is that of single assignments in lexicographic order."
  },
  {
   "property": "C28",
   "status": "partial",
   "theorems": [
    "Verif.Props.C28_partial",
    "Verif.Props.C28_false",
    "Verif.Props.C28_unallocated"
   ],
   "note": "Checked build, any anchors; the only undefined behaviour is int overflow before any access, and none if the anchors are in machine range. Without checks false (C28_false); for unallocated arrays false even when checked (C28_unallocated)."
  },
  {
   "property": "C29",
   "status": "proved",
   "theorems": [
    "Verif.Props.C29"
   ],
   "note": "Both flag overloads, 1D/2D/3D, both builds; zones with at least one point, sums in machine range."
  },
  {
   "property": "C30",
   "status": "partial",
   "theorems": [
    "Verif.Props.C30_false",
    "Verif.Props.C30_false_half",
    "Verif.Props.C30_partial",
    "Verif.Props.C30_exact"
   ],
   "note": "False: undefined behaviour for zones with a gap (C30_false), a copied point for touching half zones (C30_false_half). Holds when the zones only touch in a center dimension (C30_partial). C30_exact: for zones inside the arrays, exactly when the unchecked call is undefined, when it changes nothing and when it copies."
  },
  {
   "property": "C31",
   "status": "proved",
   "theorems": [
    "Verif.Props.C31"
   ],
   "note": ""
  },
  {
   "property": "C32",
   "status": "proved",
   "theorems": [
    "Verif.Props.C32_d1",
    "Verif.Props.C32_d2",
    "Verif.Props.C32_d3",
    "Verif.Props.C32_d0"
   ],
   "note": "0D, 1D, 2D, 3D; all accessors with a dimension argument"
  },
  {
   "property": "C33",
   "status": "proved",
   "theorems": [
    "Verif.Props.C33",
    "Verif.Props.C33_order",
    "Verif.Props.C33_once",
    "Verif.Props.C33_d0",
    "Verif.Props.C33_unallocated"
   ],
   "note": "Every reachable allocated 1D/2D/3D array, both builds: disp_data returns, changes nothing and prints exactly the page of the specification (separators included), whose elements are all stored elements, once each, in storage order (1D: per point all components). 0D: C33_d0. Formatting of one value is a parameter. C33_unallocated: on an unallocated half located array the call reads through null."
  },
  {
   "property": "C34",
   "status": "proved",
   "theorems": [
    "Verif.Props.C34"
   ],
   "note": ""
  },
  {
   "property": "C35",
   "status": "partial",
   "theorems": [
    "Verif.Props.C35_picks",
    "Verif.Props.C35_partial",
    "Verif.Props.C35_reject",
    "Verif.Props.C35_skip",
    "Verif.Props.C35_get",
    "Verif.Props.C35_false",
    "Verif.Props.C35_negative_skip",
    "Verif.Props.C35_negative_begin",
    "Verif.Props.C35_negative_max",
    "Verif.Props.C35_exact",
    "Verif.Props.C35_exact_real"
   ],
   "note": "Count, lower bound, unit case, dimensions (C35_partial), rejections with their messages (C35_reject, C35_skip), agreement with the list of indices (C35_picks, C35_get). Begin+End must fit int: false beyond (C35_false). Negative Skip/Begin/Max are not rejected (C35_negative_*), so the claim that invalid settings are rejected is false. C35_exact: the outcome for all int settings, negative ones included; C35_exact_real: the size that a negative stride gives."
  },
  {
   "property": "C36",
   "status": "partial",
   "theorems": [
    "Verif.Props.C36_order",
    "Verif.Props.C36_partial",
    "Verif.Props.C36_success_partial",
    "Verif.Props.C36_release_partial",
    "Verif.Props.C36_false_stride",
    "Verif.Props.C36_false_product",
    "Verif.Props.C36_whole",
    "Verif.Props.C36_over",
    "Verif.Props.C36_exact",
    "Verif.Props.C36_held",
    "Verif.Props.C36_short"
   ],
   "note": "Order, content, bounds and release proved for every accepted zone whose Max product fits int and whose last stride fits int; signed overflow beyond (C36_false_product, C36_false_stride). C36_whole: whole zones need no limit; C36_over: undefined whenever the number of selected points leaves int. C36_exact: for every accepted zone, make_buf succeeds exactly when the zone is written as it is, or has no variable, or all numbers needed to copy its points are int (Spec/TecCalc), and is undefined otherwise; C36_held: whenever it succeeds the buffers hold exactly the selected bytes, without any condition on sizes; C36_short: exactly when exhausted memory is reported."
  },
  {
   "property": "C37",
   "status": "proved",
   "theorems": [
    "Verif.Props.C37_logged",
    "Verif.Props.C37",
    "Verif.Props.C37_memory",
    "Verif.Props.C37_value",
    "Verif.Props.C37_nan",
    "Verif.Props.C37_empty"
   ],
   "note": "Any linear order (C37); the five element types in memory without NaN (C37_memory), and exact real values for finite data (C37_value). C37_nan: with NaN the maximum can be missed; C37_empty: N = 0 reads out of bounds."
  },
  {
   "property": "C38",
   "status": "proved",
   "theorems": [
    "Verif.Props.C38",
    "Verif.Props.C38_frame",
    "Verif.Props.C38_log"
   ],
   "note": "Every successful write_plt of a file whose zones fit (no overflow, C36) and whose data do not overlap the buffers: each logged position is where the bytes of the selected points of that variable start in the file on disk, in file order (C38); the file outside the data is the header and zone heads (C38_frame); logged min and max are those of the written points (C37_logged). fwrite never fails and ftell is exact in the model."
  },
  {
   "property": "C39",
   "status": "proved",
   "theorems": [
    "Verif.Props.C39_read",
    "Verif.Props.C39"
   ],
   "note": "C39 is the whole round trip write_plt / read_plt: for every source array (any dimension, locations, virtual points, number type with a byte encoding), every file whose zone selects the interior, every target array with the same interior counts. C39_read is the reading half for arbitrary logs and files. That the byte memory handed to TEC_DATA is the image of the component is a hypothesis (ImageOf): the array heap and the byte heap are separate in the model."
  },
  {
   "property": "C40",
   "status": "proved",
   "theorems": [
    "Verif.Props.C40",
    "Verif.Props.C40_when",
    "Verif.Props.C40_size",
    "Verif.Props.C40_component"
   ],
   "note": "For every array, log, file content and memory: on an exception no array has changed and the buffer is given back. C40_when gives the exact exception for logs that describe all variables (LogOk). C40_size / C40_component: what read_plt does not check (undefined behaviour)."
  },
  {
   "property": "C41",
   "status": "partial",
   "theorems": [
    "Verif.Props.C41_partial",
    "Verif.Props.C41_empty",
    "Verif.Props.C41_open",
    "Verif.Props.C41_false",
    "Verif.Props.C41_exact",
    "Verif.Props.C41_exact_open"
   ],
   "note": "Zones without negative numbers and without overflow of Begin+End: an invalid file throws, the log records the message, nothing else changes (C41_partial, C41_empty, C41_open). False beyond: Skip = -1 passes the checks and the old file is destroyed before the failure (C41_false). C41_exact, C41_exact_open: all int settings; the first zone that does not pass decides between an exception that changes nothing and overflow."
  },
  {
   "property": "C42",
   "status": "proved",
   "theorems": [
    "Verif.Props.C42",
    "Verif.Props.C42_head",
    "Verif.Props.C42_nul"
   ],
   "note": "An independent reader of the header (Verif/Spec/TecHead.lean) recovers title, variables, zones and auxiliary data of every successfully written file whose texts contain no NUL; with NUL the header is ambiguous (C42_nul)."
  },
  {
   "property": "C43",
   "status": "proved",
   "theorems": [
    "Verif.Props.C43",
    "Verif.Props.C43_zone",
    "Verif.Props.C43_new",
    "Verif.Props.C43_single",
    "Verif.Props.C43_get",
    "Verif.Props.C43_double"
   ],
   "note": "std::map of texts modelled as an ordered list; all sequences of insertions into a new or existing file or zone, the lookup that throws, and the double variant (whose 200 byte buffer is a stated outcome). std::stringstream parsing of the looked-up text is a parameter."
  },
  {
   "property": "C44",
   "status": "partial",
   "theorems": [
    "Verif.Props.C44_file",
    "Verif.Props.C44_zone",
    "Verif.Props.C44_bits",
    "Verif.Props.C44_partial",
    "Verif.Props.C44_new",
    "Verif.Props.C44_false",
    "Verif.Props.C44_false_order"
   ],
   "note": "Named modes and all bit texts for file and zone. The combined claim for set_echo_mode is false: without zones a wrong zone code is accepted (C44_false), and the file mode has already changed when a zone code is refused (C44_false_order). Whether characters beyond the width of std::bitset are examined is a parameter (`strict`)."
  },
  {
   "property": "C45",
   "status": "proved",
   "theorems": [
    "Verif.Props.C45_echo",
    "Verif.Props.C45_json",
    "Verif.Props.C45_xml",
    "Verif.Props.C45_files",
    "Verif.Props.C45_depth"
   ],
   "note": "write_echo, write_json and write_xml after every successful write_plt, to streams and to files; depth at least 0 and depth+2 in int (negative depth overflows: C45_depth)."
  },
  {
   "property": "C46",
   "status": "partial",
   "theorems": [
    "Verif.Props.C46_exact",
    "Verif.Props.C46_exact_zone",
    "Verif.Props.C46_exact_else",
    "Verif.Props.C46_partial",
    "Verif.Props.C46_partial_zone",
    "Verif.Props.C46_false",
    "Verif.Props.C46_false_zone",
    "Verif.Props.C46_false_write"
   ],
   "note": "False as stated: names of 178 characters overrun the buffer (C46_false, C46_false_zone, C46_false_write). C46_partial: all texts up to 150 characters are safe, given bounds on the lengths printed by %le and %.5lf. C46_exact, C46_exact_zone: the exact bounds, both directions; C46_exact_else: beyond them a buffer is overrun or something indeterminate is read."
  },
  {
   "property": "C47",
   "status": "proved",
   "theorems": [
    "Verif.Props.C47",
    "Verif.Props.C47_count"
   ],
   "note": "Any dimension, any tags in the other dimensions, any fitting flags (also half-located), any function applied to the value. Mirror sources need 2*(n+i+p) to be an int."
  },
  {
   "property": "C48",
   "status": "proved",
   "theorems": [
    "Verif.Props.C48_except",
    "Verif.Props.C48_no_escape",
    "Verif.Props.C48_pad",
    "Verif.Props.C48_time",
    "Verif.Props.C48_time_cases"
   ],
   "note": "The two output streams may be the same object; clock, time and double arithmetic are parameters of the model."
  },
  {
   "property": "C49",
   "status": "partial",
   "theorems": [
    "Verif.Props.C49_partial",
    "Verif.Props.C49_false_max",
    "Verif.Props.C49_false",
    "Verif.Props.C49_any"
   ],
   "note": "Partial because false of the code: C49_false (a line is put together in a buffer of 100 bytes), C49_false_max (the line of Real_Max gives its first Dim entries, not the ones that differ from 1; the theorems state the line as the code prints it). C49_any supposes nothing about the lengths of the texts: whenever write_plt returns, this is the report; C50_exact says when it returns."
  },
  {
   "property": "C50",
   "status": "proved",
   "theorems": [
    "Verif.Props.C50",
    "Verif.Props.C50_defined",
    "Verif.Props.C50_exact",
    "Verif.Props.C50_exact_else"
   ],
   "note": "C50 has the convenient bounds of Brief; C50_exact has the exact ones (TecFile.Snug): with memory, a valid file is written if and only if the lines asked for fit 100 bytes and the lines of the log 200; otherwise the behaviour is undefined (C50_exact_else). C50_defined covers settings that are not valid, files that cannot be opened, lack of memory."
  },
  {
   "property": "C51",
   "status": "proved",
   "theorems": [
    "Verif.Props.C51"
   ],
   "note": "Begin, end and duration are what the clock gave (parameters of the model)."
  },
  {
   "property": "C52",
   "status": "proved",
   "theorems": [
    "Verif.Props.C52",
    "Verif.Props.C52_decl",
    "Verif.Props.C52_unique",
    "Verif.Props.C52_rounds",
    "Verif.Props.C52_rounds_attrs"
   ],
   "note": "C52_rounds: the bound on the rounds in the model of the reader has no effect. C52_unique: a text shows at most one tree."
  },
  {
   "property": "C53",
   "status": "partial",
   "theorems": [
    "Verif.Props.C53_partial",
    "Verif.Props.C53_partial_file",
    "Verif.Props.C53_false",
    "Verif.Props.C53_exact",
    "Verif.Props.C53_exact_file",
    "Verif.Props.C53_tidy",
    "Verif.Props.C53_literal"
   ],
   "note": "C53_exact, C53_exact_file: for all logs the written xml loads back as the tree of the log if and only if FileLoads (Verif/Spec/XmlExact.lean): texts of elements are blank or free of `<`, file and zone names are free of a double quote, no text has NUL, carriage return or an `&` that tinyxml2 takes for a reference, names of variables and of auxiliary data are xml names, counters fit int. The claim itself is false for all other logs. C53_false: gen_xml escapes nothing; variables and auxiliary data become element names, so 'rho u' or '2nd' give a file that cannot be loaded."
  },
  {
   "property": "C54",
   "status": "partial",
   "theorems": [
    "Verif.Props.C54_partial",
    "Verif.Props.C54_false",
    "Verif.Props.C54_again"
   ],
   "note": "Missing: logs with a text without visible characters; C54_false proves that reading any such log is undefined (GetText gives a null pointer). Real numbers: what sscanf makes of the printed text is a parameter (Scans)."
  },
  {
   "property": "C56",
   "status": "proved",
   "theorems": [
    "Verif.Props.C56",
    "Verif.Props.C56_missing",
    "Verif.Props.C56_get",
    "Verif.Props.C56_null",
    "Verif.Props.C56_noThrow",
    "Verif.Props.C56_needs",
    "Verif.Props.C56_appends",
    "Verif.Props.C56_exact",
    "Verif.Props.C56_held",
    "Verif.Props.C56_undefined",
    "Verif.Props.C56_one",
    "Verif.Props.C56_strange"
   ],
   "note": "C56_exact, C56_held, C56_undefined: read_xml on arbitrary trees in both directions, against the relation HoldsFile of Spec/XmlForeign.lean, which does not use the reader; C56_exact supposes that the names are short enough for the texts that read_xml generates afterwards."
  },
  {
   "property": "C57",
   "status": "proved",
   "theorems": [
    "Verif.Props.C57",
    "Verif.Props.C57_attr"
   ],
   "note": "Shows how C53 could be repaired: escape names and texts in gen_xml."
  },
  {
   "property": "C55",
   "status": "proved",
   "theorems": [
    "Verif.Props.C55_log",
    "Verif.Props.C55"
   ],
   "note": "C55_log: the log that is read agrees with the log that was written (fileBack of Verif/Spec/XmlBack.lean). The hypothesis FileFair excludes texts that need escaping and blank texts, for which C53_false and C54_false hold."
  },
  {
   "property": "C58",
   "status": "proved",
   "theorems": [
    "Verif.Props.C58"
   ],
   "note": ""
  },
  {
   "property": "C59",
   "status": "partial",
   "theorems": [
    "Verif.Props.C59_unique",
    "Verif.Props.C59_partial",
    "Verif.Props.C59_partial_zone",
    "Verif.Props.C59_exact",
    "Verif.Props.C59_exact_zone",
    "Verif.Props.C59_partial_written",
    "Verif.Props.C59_false"
   ],
   "note": "Partial because false of the code: nothing is escaped (C59_false). C59_exact is the complete answer: the text is the JSON of the content of the log exactly if no text contains a control character, a quotation mark or a backslash, every real number is printed as a JSON number and the sizes fit int. The conversions %e, %.5f are parameters."
  },
  {
   "property": "C60",
   "status": "proved",
   "theorems": [
    "Verif.Props.C60",
    "Verif.Props.C60_untyped"
   ],
   "note": "For variables whose size belongs to their type, as TEC_DATA(T *) makes them; with other sizes (the members are public) the file is not of the format: C60_untyped."
  },
  {
   "property": "C61",
   "status": "partial",
   "theorems": [
    "Verif.Props.C61",
    "Verif.Props.C61_partial",
    "Verif.Props.C61_exact",
    "Verif.Props.C61_iff",
    "Verif.Props.C61_builtin",
    "Verif.Props.C61_false"
   ],
   "note": "Refusal is proved if the text of the exception fits its buffer of 300 bytes (all types that are not classes do). False of classes with long names: the buffer overruns (C61_false). C61_exact: for all other types the constructor throws its text or, if the name of the type is too long for the buffer, writes outside of it."
  },
  {
   "property": "C62",
   "status": "proved",
   "theorems": [
    "Verif.Props.C62_get",
    "Verif.Props.C62_set",
    "Verif.Props.C62_iff",
    "Verif.Props.C62_place",
    "Verif.Props.C62_place2"
   ],
   "note": ""
  },
  {
   "property": "C63",
   "status": "proved",
   "theorems": [
    "Verif.Props.C63_unique",
    "Verif.Props.C63_print",
    "Verif.Props.C63",
    "Verif.Props.C63_json"
   ],
   "note": "For printf as ISO C and glibc define it (Verif/Model/Printf.lean)."
  },
  {
   "property": "C64",
   "status": "proved",
   "theorems": [
    "Verif.Props.C64_nearest",
    "Verif.Props.C64_back",
    "Verif.Props.C64",
    "Verif.Props.C64_exact_false"
   ],
   "note": "For printf and sscanf as ISO C and glibc define them (Verif/Model/Printf.lean, Verif/Model/Scanf.lean). The errors are real: C64_exact_false."
  },
  {
   "property": "C65",
   "status": "proved",
   "theorems": [
    "Verif.Props.C65",
    "Verif.Props.C65_uninit",
    "Verif.Props.C65_dependent"
   ],
   "note": ""
  },
  {
   "property": "C66",
   "status": "proved",
   "theorems": [
    "Verif.Props.C66"
   ],
   "note": "The arithmetic is arbitrary, so this covers double with any rounding."
  },
  {
   "property": "C67",
   "status": "proved",
   "theorems": [
    "Verif.Props.C67",
    "Verif.Props.C67_prints_unassigned"
   ],
   "note": "Not modelled of the program: its output on cout and out, the clock, and the condition that ends the for(;;), instead of which the number of passes is arbitrary. C67_prints_unassigned: the program prints two elements that were never assigned."
  },
  {
   "property": "C68",
   "status": "proved",
   "theorems": [
    "Verif.Props.C68_conserved",
    "Verif.Props.C68_bounded",
    "Verif.Props.C68"
   ],
   "note": "For exact numbers; double rounds."
  },
  {
   "property": "C69",
   "status": "proved",
   "theorems": [
    "Verif.Props.C69",
    "Verif.Props.C69_half"
   ],
   "note": "C69_half: with a half-located dimension the idiom writes other elements than the interior, since size(d, RA::ALL) does not count the additional point."
  },
  {
   "property": "C70",
   "status": "proved",
   "theorems": [
    "Verif.Props.C70",
    "Verif.Props.C70_loops"
   ],
   "note": "The memory of the arrays (numbers) and that of the writer (bytes) are related by ByteView: the bytes of an assigned element are enc of its value. byteView_exists: every reachable state has such bytes."
  },
  {
   "property": "C71",
   "status": "proved",
   "theorems": [
    "Verif.Props.C71"
   ],
   "note": ""
  },
  {
   "property": "C72",
   "status": "proved",
   "theorems": [
    "Verif.Props.C72"
   ],
   "note": "Not modelled of the program: its output on cout and out, the clock, the condition that ends the for(;;) (the number of passes is arbitrary), and last_log.write_xml after write_plt (C53 and C55 speak of it)."
  },
  {
   "property": "C73",
   "status": "proved",
   "theorems": [
    "Verif.Props.C73_bounded",
    "Verif.Props.C73"
   ],
   "note": "For exact numbers; double rounds."
  },
  {
   "property": "C75",
   "status": "proved",
   "theorems": [
    "Verif.Props.C75",
    "Verif.Props.C75_uninit",
    "Verif.Props.C75_sum",
    "Verif.Props.C75_max"
   ],
   "note": "The variable is counted twice (C23); C75_sum states it."
  },
  {
   "property": "C76",
   "status": "proved",
   "theorems": [
    "Verif.Props.C76"
   ],
   "note": "Not modelled of the program: its output other than the answers, and the clock (any sequence of times)."
  },
  {
   "property": "C77",
   "status": "proved",
   "theorems": [
    "Verif.Props.C77"
   ],
   "note": "For exact numbers; double rounds. The program adds N numbers and divides by N - 1: a rectangle rule with one rectangle too many, hence the error 1/(2(N-1))."
  },
  {
   "property": "C74",
   "status": "proved",
   "theorems": [
    "Verif.Props.C74"
   ],
   "note": "The file may be read back from another program with other files changed; the log is the one in memory (C55 has the log read from its XML file)."
  },
  {
   "property": "C78",
   "status": "proved",
   "theorems": [
    "Verif.Props.C78",
    "Verif.Props.C78_uninit"
   ],
   "note": "C78_uninit is the undefined case."
  },
  {
   "property": "C79",
   "status": "proved",
   "theorems": [
    "Verif.Props.C79_D1",
    "Verif.Props.C79_D2",
    "Verif.Props.C79_D3"
   ],
   "note": "One theorem for each program. Not modelled of the programs: the environment report, write_echo, write_xml, disp_data (each has its own claims)."
  },
  {
   "property": "C80",
   "status": "proved",
   "theorems": [
    "Verif.Props.C80"
   ],
   "note": "Entities other than the five are not in this claim (C98 has references to characters in detail); C52 has the simpler texts."
  },
  {
   "property": "C81",
   "status": "proved",
   "theorems": [
    "Verif.Props.C81",
    "Verif.Props.C81_compact",
    "Verif.Props.C81_indented",
    "Verif.Props.C81_save",
    "Verif.Props.C81_closed"
   ],
   "note": "C81_indented is the exact condition; an example shows the text growing with each round of loading and saving."
  },
  {
   "property": "C82",
   "status": "partial",
   "theorems": [
    "Verif.Props.C82_exact",
    "Verif.Props.C82_again",
    "Verif.Props.C82_once",
    "Verif.Props.C82_partial",
    "Verif.Props.C82_false_return",
    "Verif.Props.C82_false_blank",
    "Verif.Props.C82_false_empty",
    "Verif.Props.C82_false_top",
    "Verif.Props.C82_both",
    "Verif.Props.C82_exact_indented",
    "Verif.Props.C82_exact_wide",
    "Verif.Props.C82_wide"
   ],
   "note": "C82_exact: printed compactly, a loaded document is loaded again unchanged exactly if it is tame (no carriage return in texts and values, no text of white space), has a node, does not end with a text and does not, without a byte order mark, start with a text that starts with white space or a byte order mark. C82_exact_wide: printed with indentation (the default of SaveFile) it is unchanged exactly if moreover no text in an element is directly before an element, no text outside of the elements is directly behind an element, and those with a node before them that is no text are directly before CDATA. C82_both, C82_wide: what is loaded otherwise. C82_exact_indented: the special case without texts outside of the elements. C82_once: after one compact round nothing changes any more. C82_false_* are witnesses. So the claim itself is false; the two exact theorems are the complete answer for all loaded documents."
  },
  {
   "property": "C83",
   "status": "proved",
   "theorems": [
    "Verif.Props.C83_end",
    "Verif.Props.C83_first",
    "Verif.Props.C83_document",
    "Verif.Props.C83_cycle"
   ],
   "note": "C83_document: inserting a document follows its null pool pointer. C83_cycle is the exact condition of a cycle, which the code does not test."
  },
  {
   "property": "C84",
   "status": "partial",
   "theorems": [
    "Verif.Props.C84_partial",
    "Verif.Props.C84_null",
    "Verif.Props.C84_false",
    "Verif.Props.C84_cycle"
   ],
   "note": "False in one case, exactly: the children end with x and then the node itself; after Unlink x has no next child and its null _next is followed (C84_null, C84_false)."
  },
  {
   "property": "C85",
   "status": "proved",
   "theorems": [
    "Verif.Props.C85_walk",
    "Verif.Props.C85_child",
    "Verif.Props.C85_sibling",
    "Verif.Props.C85_loose"
   ],
   "note": ""
  },
  {
   "property": "C86",
   "status": "proved",
   "theorems": [
    "Verif.Props.C86_node",
    "Verif.Props.C86_children",
    "Verif.Props.C86_document",
    "Verif.Props.C86_dangling"
   ],
   "note": "The bound k on the depth of calls is arbitrary above some n: the real calls have no bound but the stack. C86_dangling: later uses of a deleted node are undefined."
  },
  {
   "property": "C87",
   "status": "proved",
   "theorems": [
    "Verif.Props.C87_runs",
    "Verif.Props.C87_call",
    "Verif.Props.C87_no_leak"
   ],
   "note": ""
  },
  {
   "property": "C88",
   "status": "proved",
   "theorems": [
    "Verif.Props.C88",
    "Verif.Props.C88_call",
    "Verif.Props.C88_memory",
    "Verif.Props.C88_overflow",
    "Verif.Props.C88_limit",
    "Verif.Props.C88_unlinked"
   ],
   "note": "C88 gives all sequences of calls with the destructor; C88_call, C88_memory and C88_overflow each call with the exact capacity; C88_limit the exact number of entries at which Push is undefined."
  },
  {
   "property": "C89",
   "status": "partial",
   "theorems": [
    "Verif.Props.C89_partial",
    "Verif.Props.C89_apart",
    "Verif.Props.C89_counter_false",
    "Verif.Props.C89_twice_false",
    "Verif.Props.C89_leak_false",
    "Verif.Props.C89_memory"
   ],
   "note": "C89_partial holds while fewer than 2^31 items are handed out in all, only items in use are given back, and there is memory. Beyond that it is false of the code: C89_counter_false (2^31 times take and return overflows _nAllocs), C89_twice_false (given back twice, handed out twice), C89_leak_false (a block is lost if the array of addresses cannot grow). C89_memory: no memory for the block itself loses nothing."
  },
  {
   "property": "C90",
   "status": "proved",
   "theorems": [
    "Verif.Props.C90",
    "Verif.Props.C90_test"
   ],
   "note": "C90: any sequence after a file as in C74. C90_test: the whole of Test_D1_tecfile, with and without the check."
  },
  {
   "property": "C91",
   "status": "partial",
   "theorems": [
    "Verif.Props.C91",
    "Verif.Props.C91_nan",
    "Verif.Props.C91_attribute",
    "Verif.Props.C91_text",
    "Verif.Props.C91_saved_attribute",
    "Verif.Props.C91_saved_text_partial",
    "Verif.Props.C91_saved_text_false",
    "Verif.Props.C91_words_false",
    "Verif.Props.C91_float_false",
    "Verif.Props.C91_float_partial",
    "Verif.Props.C91_query",
    "Verif.Props.C91_query_none",
    "Verif.Props.C91_query_text",
    "Verif.Props.C91_query_text_none",
    "Verif.Props.C91_bool_number",
    "Verif.Props.C91_words"
   ],
   "note": "Proved for int, unsigned, int64_t, bool and double (C91, C91_nan, C91_attribute, C91_text, C91_saved_attribute). Missing: float, of which two numbers have the same text of 8 digits (C91_float_false; C91_float_partial bounds the error of the text; what is read of it is C118); a bool as text before an element printed with indentation (C91_saved_text_false); a bool after SetBoolSerialization with other words (C91_words_false)."
  },
  {
   "property": "C92",
   "status": "proved",
   "theorems": [
    "Verif.Props.C92_runs",
    "Verif.Props.C92_call",
    "Verif.Props.C92_parse",
    "Verif.Props.C92_find",
    "Verif.Props.C92_all",
    "Verif.Props.C92_no_leak",
    "Verif.Props.C92_self",
    "Verif.Props.C92_dangling",
    "Verif.Props.C92_pointers",
    "Verif.Props.C92_setAttr"
   ],
   "note": "Calls as described by Spec/Attr.lean; setting an attribute to its own owned text is excluded from the calls and characterised by C92_self (undefined behaviour)."
  },
  {
   "property": "C93",
   "status": "proved",
   "theorems": [
    "Verif.Props.C93_deep",
    "Verif.Props.C93_apart",
    "Verif.Props.C93_document",
    "Verif.Props.C93_copy",
    "Verif.Props.C93_copy_self",
    "Verif.Props.C93_equal",
    "Verif.Props.C93_equal_self",
    "Verif.Props.C93_equal_false"
   ],
   "note": "C93_document: there is no copy of a document by DeepClone (null). C93_equal_false: equal nodes may differ in attribute names and in the CDATA flag."
  },
  {
   "property": "C94",
   "status": "proved",
   "theorems": [
    "Verif.Props.C94",
    "Verif.Props.C94_defined",
    "Verif.Props.C94_faults",
    "Verif.Props.C94_whole",
    "Verif.Props.C94_points"
   ],
   "note": "Program loops have a number of passes known when they begin; the computations of the program itself are pure. C94_whole: programs that begin without arrays. C94_points: which points a loop visits and in which order. C94_faults: the faults that leave the contract of a checked build."
  },
  {
   "property": "C95",
   "status": "proved",
   "theorems": [
    "Verif.Props.C95_D1C",
    "Verif.Props.C95_D1H",
    "Verif.Props.C95_D2C_big",
    "Verif.Props.C95_unchecked",
    "Verif.Props.C95_D2C"
   ],
   "note": "Numbers are exact rationals (the values are small integers and halves). The lines x.disp(), size().disp(), line numbers and the environment are left out. The outcomes are evaluated on the abstract machine and carried over by C94; undefined outcomes outside the contract (C95_D2C_big, C95_unchecked) are evaluated on the model itself."
  },
  {
   "property": "C96",
   "status": "proved",
   "theorems": [
    "Verif.Props.C96",
    "Verif.Props.C96_silent",
    "Verif.Props.C96_watched",
    "Verif.Props.C96_iff"
   ],
   "note": "Programs are those of C94. Which exceptions come from checks is stated in Spec/Silent.lean (Err.fromCheck); the flag of Stmt.watched records that a try block caught one, C96_watched shows that it changes nothing."
  },
  {
   "property": "C97",
   "status": "proved",
   "theorems": [
    "Verif.Props.C97",
    "Verif.Props.C97_order",
    "Verif.Props.C97_format",
    "Verif.Props.C97_limits"
   ],
   "note": "The clock, the time zone and the conversions that the default format does not use are parameters. C97_limits: concrete formats that are defined and undefined."
  },
  {
   "property": "C98",
   "status": "partial",
   "theorems": [
    "Verif.Props.C98_partial",
    "Verif.Props.C98_wrong",
    "Verif.Props.C98_dropped",
    "Verif.Props.C98_false"
   ],
   "note": "C98_partial: every Unicode character but NUL; C98_wrong: no numeral; C98_dropped: numbers of 22 to 32 bits vanish. Nothing is rejected (C98_false): numbers of more than 32 bits wrap around, surrogates and numbers up to 0x1FFFFF give bytes that are no UTF-8, NUL ends the text."
  },
  {
   "property": "C99",
   "status": "proved",
   "theorems": [
    "Verif.Props.C99_safe",
    "Verif.Props.C99_error",
    "Verif.Props.C99_tree",
    "Verif.Props.C99_places",
    "Verif.Props.C99_decode"
   ],
   "note": "C99_safe, C99_error, C99_tree, C99_places for every content; C99_decode for every value between any bytes. Default document (entities processed, white space preserved); asserts switched off; `strncmp` of whole strings without the INT_MAX bound."
  },
  {
   "property": "C100",
   "status": "proved",
   "theorems": [
    "Verif.Props.C100_tree",
    "Verif.Props.C100_error",
    "Verif.Props.C100_order",
    "Verif.Props.C100_bound"
   ],
   "note": "C100_tree and C100_error: for every content; the reader with the counter gives the same tree or error as the reader without it; C100_error also says what the reader tells about the error. C100_order: the numbers do not go back. C100_bound: no number exceeds the number of line feeds plus one, so int does not overflow below 2^31-1 line feeds (the counter of the model is a natural number)."
  },
  {
   "property": "C101",
   "status": "proved",
   "theorems": [
    "Verif.Props.C101",
    "Verif.Props.C101_legal",
    "Verif.Props.C101_load",
    "Verif.Props.C101_header",
    "Verif.Props.C101_attr_false",
    "Verif.Props.C101_close_false"
   ],
   "note": "C101 and C101_legal: exactly the legal sequences describe nodes, and one list only. C101_load: loaded again. C101_header. C101_attr_false: an attribute after a text becomes part of the text; C101_close_false: closing what is not open is undefined (TIXMLASSERT does nothing)."
  },
  {
   "property": "C102",
   "status": "proved",
   "theorems": [
    "Verif.Props.C102",
    "Verif.Props.C102_doc",
    "Verif.Props.C102_clear",
    "Verif.Props.C102_clear_false",
    "Verif.Props.C102_close"
   ],
   "note": "C102: all sequences of calls. C102_doc: documents. C102_clear: ClearBuffer; C102_clear_false: with an element open the printer is not as new. C102_close: what is undefined for the printer to a file is undefined here."
  },
  {
   "property": "C103",
   "status": "proved",
   "theorems": [
    "Verif.Props.C103",
    "Verif.Props.C103_words"
   ],
   "note": "C103: for every content that loads, the answers of the buffer to any list of questions are those of the tree with its texts collapsed, and no access leaves the buffer. C103_words: what collapsing means (same words, idempotent, only single spaces). Proved for a document with processEntities = true."
  },
  {
   "property": "C104",
   "status": "proved",
   "theorems": [
    "Verif.Props.C104",
    "Verif.Props.C104_complete",
    "Verif.Props.C104_corner",
    "Verif.Props.C104_faces",
    "Verif.Props.C104_x1",
    "Verif.Props.C104_x2",
    "Verif.Props.C104_x4",
    "Verif.Props.C104_x3",
    "Verif.Props.C104_x5",
    "Verif.Props.C104_x6"
   ],
   "note": "C104: which assignment an element has its number from (Wins), for all arrays and all lists of assignments. C104_complete: every element has a number. C104_corner: the far corner is reached by flags that are all FL::P only. C104_faces: x7 of Test_D3_PointData_H for all sizes. C104_x1 to C104_x6: the other arrays of that test, with one or two half located dimensions, for all sizes. The assigned number is any function of the loop indices; it does not read the array."
  },
  {
   "property": "C105",
   "status": "proved",
   "theorems": [
    "Verif.Props.C105",
    "Verif.Props.C105_big",
    "Verif.Props.C105_unchecked"
   ],
   "note": "C105: output and exceptions of the program, and the undefined read of the constant array. C105_big: line 39. C105_unchecked: without _CHECK_POINTDATA_RANGE. Evaluated by the kernel on the abstract machine and transferred by C94."
  },
  {
   "property": "C106",
   "status": "proved",
   "theorems": [
    "Verif.Props.C106",
    "Verif.Props.C106_plain"
   ],
   "note": "C106: every chain of steps. C106_plain: the same with plain pointers. The states are those of C83-C87 (Links), which all histories of calls keep (C87)."
  },
  {
   "property": "C107",
   "status": "proved",
   "theorems": [
    "Verif.Props.C107",
    "Verif.Props.C107_empty",
    "Verif.Props.C107_own",
    "Verif.Props.C107_row",
    "Verif.Props.C107_comp"
   ],
   "note": "C107: read and write for all indices, both outcomes. C107_own: valid accesses have their own places, different ones different places. C107_row, C107_comp: the next row, the next component. C107_empty: arrays without elements."
  },
  {
   "property": "C108",
   "status": "proved",
   "theorems": [
    "Verif.Props.C108",
    "Verif.Props.C108_cells"
   ],
   "note": "C108: every outcome in both builds. C108_cells: the listing by place the theorem speaks about exists. Beyond 2^28 the sums of the arguments can leave int, which is undefined behaviour."
  },
  {
   "property": "C109",
   "status": "proved",
   "theorems": [
    "Verif.Props.C109",
    "Verif.Props.C109_order",
    "Verif.Props.C109_follow",
    "Verif.Props.C109_default",
    "Verif.Props.C109_quit",
    "Verif.Props.C109_comment"
   ],
   "note": "C109: outcome and calls. C109_order: first and last call, the call behind every call, pairs, no repetition. C109_follow: the call behind a call is fixed by it and its answer. C109_default, C109_quit: answers true throughout; false from some call on. C109_comment: the negation of the comment at tinyxml2.h:453-454, with a witness."
  },
  {
   "property": "C110",
   "status": "partial",
   "theorems": [
    "Verif.Props.C110",
    "Verif.Props.C110_same",
    "Verif.Props.C110_default",
    "Verif.Props.C110_save",
    "Verif.Props.C110_lost",
    "Verif.Props.C110_false"
   ],
   "note": "C110, C110_same: reading, for every file. C110_default: with processing on, reader and printer are those of C52 and C81. C110_save: what is saved, for every tree. C110_lost: documents that differ in texts and attribute values alone are saved alike. The claim about saving is false: C110_false has a document that is not read back. Missing: white space collapsing together with processEntities = false."
  },
  {
   "property": "C111",
   "status": "partial",
   "theorems": [
    "Verif.Props.C111",
    "Verif.Props.C111_tells",
    "Verif.Props.C111_name",
    "Verif.Props.C111_silent_false",
    "Verif.Props.C111_clear"
   ],
   "note": "C111: the text, for all errors with something to say; C111_tells: what can be read from it; C111_name, C111_clear. The claim that the text tells the error is false if the caller says nothing: C111_silent_false."
  },
  {
   "property": "C112",
   "status": "partial",
   "theorems": [
    "Verif.Props.C112_float",
    "Verif.Props.C112",
    "Verif.Props.C112_float_false"
   ],
   "note": "C112: every table of int, unsigned, int64_t, bool and double. The claim is false of float: C112_float_false. C112_float is what holds of tables of float: the same sign and a relative error of at most 1e-7."
  },
  {
   "property": "C113",
   "status": "proved",
   "theorems": [
    "Verif.Props.C113",
    "Verif.Props.C113_save"
   ],
   "note": "C113: after LoadFile, for every content; what is told is described by Tells and About (Spec/XmlLines, Spec/XmlLoadError). C113_save: after SaveFile. Not modelled: null pointers as file names, read errors in the middle of a file."
  },
  {
   "property": "C114",
   "status": "partial",
   "theorems": [
    "Verif.Props.C114_partial",
    "Verif.Props.C114_small",
    "Verif.Props.C114_deep",
    "Verif.Props.C114_false",
    "Verif.Props.C114_print"
   ],
   "note": "C114_partial and C114_small are the part that holds; C114_deep and C114_false show that it cannot hold in general: this version of tinyxml2 has no limit of the depth, so a file of a few hundred kilobytes of `<a>` overflows a usual stack. The stack is counted in calls of XMLNode::ParseDeep; the bytes of a call are not modelled; deleting and cloning are C117. C114_print: printing, exactly."
  },
  {
   "property": "C115",
   "status": "proved",
   "theorems": [
    "Verif.Props.C115_size",
    "Verif.Props.C115_range",
    "Verif.Props.C115_unchecked",
    "Verif.Props.C115_undefined",
    "Verif.Props.C115_d0"
   ],
   "note": "C115_size, C115_range (checked builds), C115_unchecked (one dimension), C115_undefined (unchecked builds of two and three dimensions: undefined), C115_d0. The tables were computed from the source of the tests by a separate script. What disp_env writes is in front (any text)."
  },
  {
   "property": "C116",
   "status": "proved",
   "theorems": [
    "Verif.Props.C116",
    "Verif.Props.C116_const",
    "Verif.Props.C116_unchecked",
    "Verif.Props.C116_half",
    "Verif.Props.C116_half_const"
   ],
   "note": "C116 (centres), C116_half (half points); C116_const, C116_half_const: with the constant arrays the programs are undefined; C116_unchecked: the unchecked build of Test_D3_PointData_C is undefined. The lines of x.disp(), size().disp() and the environment are left out, and of exec_except only the exception is kept; numbers are integers and the negative zero."
  },
  {
   "property": "C117",
   "status": "proved",
   "theorems": [
    "Verif.Props.C117_node",
    "Verif.Props.C117_document",
    "Verif.Props.C117_clone",
    "Verif.Props.C117_copy",
    "Verif.Props.C117_false"
   ],
   "note": "C117_node, C117_document, C117_clone, C117_copy: both directions, for each of the calls. C117_false: that every document can be destroyed is false for every stack. All calls of one kind are taken to need the same room; an exhausted stack is the undefined outcome `overflow`."
  },
  {
   "property": "C118",
   "status": "proved",
   "theorems": [
    "Verif.Props.C118_nearest",
    "Verif.Props.C118_tie",
    "Verif.Props.C118_back",
    "Verif.Props.C118_exact",
    "Verif.Props.C118_false",
    "Verif.Props.C118_special",
    "Verif.Props.C118_query",
    "Verif.Props.C118_saved",
    "Verif.Props.C118_query_attribute",
    "Verif.Props.C118_query_attribute_none",
    "Verif.Props.C118_query_text",
    "Verif.Props.C118_query_text_none"
   ],
   "note": "C118_nearest, C118_tie: what is read of a decimal text. C118_back, C118_exact, C118_special: what is read of the text of a float. C118_query, C118_saved: in elements and in documents. C118_query_attribute, C118_query_text and their _none: what the queries answer for any element. C118_false: 0x4120000B is read back as 0x4120000A. `%f` and `%.8g` are taken to convert as in glibc, \"C\" locale, default rounding mode; hexadecimal numbers are not read as such."
  },
  {
   "property": "C119",
   "status": "proved",
   "theorems": [
    "Verif.Props.C119_nearest",
    "Verif.Props.C119_tie",
    "Verif.Props.C119_int",
    "Verif.Props.C119_int64",
    "Verif.Props.C119_unsigned",
    "Verif.Props.C119_bool"
   ],
   "note": "C119_int, C119_int64, C119_unsigned, C119_bool: for every text; ShowsInt (Spec/XmlForeign) says which texts show an integer. C119_nearest, C119_tie: double. `sscanf` is taken to convert as in glibc, \"C\" locale, default rounding mode; an integer that does not fit is undefined behaviour, as ISO C says; hexadecimal floating numbers are not read as such."
  },
  {
   "property": "C120",
   "status": "proved",
   "theorems": [
    "Verif.Props.C120",
    "Verif.Props.C120_whole",
    "Verif.Props.C120_nul",
    "Verif.Props.C120_null",
    "Verif.Props.C120_undefined",
    "Verif.Props.C120_printed"
   ],
   "note": "C120, C120_whole, C120_nul, C120_null: the result. C120_undefined: exactly when the memory is left. C120_printed: with C81. The array of the caller is not freed or changed meanwhile; a source that overlaps the buffer of the document itself (deleted by Clear before it is read) is not modelled."
  }
 ]
}