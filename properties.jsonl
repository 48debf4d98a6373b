{"id": "C01", "title": "Element isolation", "statement": "After x(n,idx)=v on an allocated array, reading x(n,idx) gives v and reading any other element x(n',idx') of the same array gives exactly what it gave before the write; elements of other arrays are unchanged too.", "quantifier": "every dimension 1-3, every representable size, every component count N, every location (center/half) per dimension, every pair of valid (component, index) addresses, every value", "why_tests_cant": "needs pairwise distinctness of all element addresses for unboundedly many shapes", "anchors": ["scr/liton_point_data/PointData_1D.hpp::PointData::operator()", "scr/liton_point_data/PointData_1D.hpp::PointData::alloc", "scr/liton_point_data/PointData_2D.hpp::PointData::operator()", "scr/liton_point_data/PointData_2D.hpp::PointData::alloc", "scr/liton_point_data/PointData_3D.hpp::PointData::operator()", "scr/liton_point_data/PointData_3D.hpp::PointData::alloc"]}
{"id": "C02", "title": "Checked access is memory safe and rejects exactly the invalid accesses", "statement": "In a build with range checking, x(n,idx,flags) on a successfully allocated or empty array either returns a reference to an element inside the array's own live storage, or throws; it throws exactly when the array has no data, n>=N, a flag does not fit the location, or an index is outside the range for that flag, and the first failing check decides which error.", "quantifier": "every array state, every unsigned n, every int index, every flag combination", "why_tests_cant": "all 2^32 indices per dimension and all shapes", "anchors": ["scr/liton_point_data/PointData_1D.hpp::PointData::operator()", "scr/liton_point_data/PointData_1D.hpp::RangeT::check_range", "scr/liton_point_data/PointData_1D.hpp::PointData::check_flag", "scr/liton_point_data/PointData_1D.hpp::PointData::check_n", "scr/liton_point_data/PointData_1D.hpp::PointData::check_data", "scr/liton_point_data/PointData_2D.hpp::PointData::operator()", "scr/liton_point_data/PointData_2D.hpp::RangeT::check_range", "scr/liton_point_data/PointData_2D.hpp::PointData::check_flag", "scr/liton_point_data/PointData_2D.hpp::PointData::check_n", "scr/liton_point_data/PointData_2D.hpp::PointData::check_data", "scr/liton_point_data/PointData_3D.hpp::PointData::operator()", "scr/liton_point_data/PointData_3D.hpp::RangeT::check_range", "scr/liton_point_data/PointData_3D.hpp::PointData::check_flag", "scr/liton_point_data/PointData_3D.hpp::PointData::check_n", "scr/liton_point_data/PointData_3D.hpp::PointData::check_data"]}
{"id": "C03", "title": "Unchecked access agrees with checked access", "statement": "Whenever the checked build accepts x(n,idx,flags), the unchecked build returns a reference to the same element.", "quantifier": "every array, every accepted access", "why_tests_cant": "quantifies over all shapes and accesses in two builds", "anchors": ["scr/liton_point_data/PointData_1D.hpp::PointData::operator()", "scr/liton_point_data/PointData_2D.hpp::PointData::operator()", "scr/liton_point_data/PointData_3D.hpp::PointData::operator()"]}
{"id": "C04", "title": "Half points", "statement": "In a half-located dimension there is exactly one more point than in a center-located one; for every cell i the P-face of i is the same element as the N-face of i+1, and the N-face and P-face of one cell are different elements.", "quantifier": "every half-located array, every cell index", "why_tests_cant": "every shape and index", "anchors": ["scr/liton_point_data/PointData_1D.hpp::PointData::operator()", "scr/liton_point_data/PointData_2D.hpp::PointData::operator()", "scr/liton_point_data/PointData_3D.hpp::PointData::operator()", "scr/liton_point_data/PointData.hpp::FL"]}
{"id": "C05", "title": "Row-major contiguous component layout", "statement": "data_pt(n) is the address of component n's first point and the element (n,idx) lies at data_pt(n)+row_major_offset(idx), last index fastest, so a component is a contiguous C array of extent (n+in+p+loc) per dimension; components follow each other without gap (structure of arrays).", "quantifier": "every allocated array, component, index", "why_tests_cant": "all shapes", "anchors": ["scr/liton_point_data/PointData_1D.hpp::PointData::data_pt", "scr/liton_point_data/PointData_1D.hpp::PointData::alloc", "scr/liton_point_data/PointData_2D.hpp::PointData::data_pt", "scr/liton_point_data/PointData_2D.hpp::PointData::alloc", "scr/liton_point_data/PointData_3D.hpp::PointData::data_pt", "scr/liton_point_data/PointData_3D.hpp::PointData::alloc"]}
{"id": "C06", "title": "Lifecycle is a simple state machine over any history", "statement": "For any sequence of alloc, realloc, clear, element reads and writes, size queries on any number of arrays, every call returns exactly what the abstract machine (each array is empty, or an allocated shape with a value per element) returns, including which calls throw.", "quantifier": "every history of calls, every number of arrays, every outcome of memory allocation", "why_tests_cant": "histories are unbounded", "anchors": ["scr/liton_point_data/PointData_1D.hpp::PointData::alloc", "scr/liton_point_data/PointData_1D.hpp::PointData::realloc", "scr/liton_point_data/PointData_1D.hpp::PointData::clear", "scr/liton_point_data/PointData_1D.hpp::PointData::size", "scr/liton_point_data/PointData_2D.hpp::PointData::alloc", "scr/liton_point_data/PointData_2D.hpp::PointData::realloc", "scr/liton_point_data/PointData_2D.hpp::PointData::clear", "scr/liton_point_data/PointData_2D.hpp::PointData::size", "scr/liton_point_data/PointData_3D.hpp::PointData::alloc", "scr/liton_point_data/PointData_3D.hpp::PointData::realloc", "scr/liton_point_data/PointData_3D.hpp::PointData::clear", "scr/liton_point_data/PointData_3D.hpp::PointData::size"]}
{"id": "C07", "title": "Rejected lifecycle calls change nothing", "statement": "alloc on a non-empty array, clear or realloc on an empty array, and alloc/realloc with a zero interior but non-zero virtual points throw and leave the array's size, storage and element values unchanged.", "quantifier": "every array state, every size argument", "why_tests_cant": "all states", "anchors": ["scr/liton_point_data/PointData_1D.hpp::PointData::alloc", "scr/liton_point_data/PointData_1D.hpp::PointData::realloc", "scr/liton_point_data/PointData_1D.hpp::PointData::clear", "scr/liton_point_data/PointData_1D.hpp::SizeT::check", "scr/liton_point_data/PointData_2D.hpp::PointData::alloc", "scr/liton_point_data/PointData_2D.hpp::PointData::realloc", "scr/liton_point_data/PointData_2D.hpp::PointData::clear", "scr/liton_point_data/PointData_2D.hpp::SizeT::check", "scr/liton_point_data/PointData_3D.hpp::PointData::alloc", "scr/liton_point_data/PointData_3D.hpp::PointData::realloc", "scr/liton_point_data/PointData_3D.hpp::PointData::clear", "scr/liton_point_data/PointData_3D.hpp::SizeT::check"]}
{"id": "C08", "title": "Empty shapes", "statement": "alloc with a shape that contains no point succeeds without allocating and leaves the array empty, so a later alloc is still allowed; a shape with at least one point leaves it non-empty with size() equal to the request.", "quantifier": "every size argument within machine range", "why_tests_cant": "all shapes", "anchors": ["scr/liton_point_data/PointData_1D.hpp::PointData::alloc", "scr/liton_point_data/PointData_2D.hpp::PointData::alloc", "scr/liton_point_data/PointData_3D.hpp::PointData::alloc"]}
{"id": "C09", "title": "Allocation failure leaves the array empty", "statement": "If memory runs out during alloc, alloc throws 'no more memory for allocating', and the array is as empty as before (size zero, no data, a later alloc is allowed).", "quantifier": "every shape, every point of failure inside alloc", "why_tests_cant": "failure points cannot be forced from a unit test", "anchors": ["scr/liton_point_data/PointData_1D.hpp::PointData::alloc", "scr/liton_point_data/PointData_2D.hpp::PointData::alloc", "scr/liton_point_data/PointData_3D.hpp::PointData::alloc"]}
{"id": "C10", "title": "No leak and no double free", "statement": "For any history of lifecycle calls on any arrays, including failed ones, destroying the arrays releases every block they allocated exactly once and never releases a block twice.", "quantifier": "every history, every pattern of allocation failures", "why_tests_cant": "unbounded histories and failure injection", "anchors": ["scr/liton_point_data/PointData_1D.hpp::PointData::~PointData", "scr/liton_point_data/PointData_1D.hpp::PointData::clear", "scr/liton_point_data/PointData_1D.hpp::PointData::alloc", "scr/liton_point_data/PointData_1D.hpp::PointData::PointData", "scr/liton_point_data/PointData_2D.hpp::PointData::~PointData", "scr/liton_point_data/PointData_2D.hpp::PointData::clear", "scr/liton_point_data/PointData_2D.hpp::PointData::alloc", "scr/liton_point_data/PointData_2D.hpp::PointData::PointData", "scr/liton_point_data/PointData_3D.hpp::PointData::~PointData", "scr/liton_point_data/PointData_3D.hpp::PointData::clear", "scr/liton_point_data/PointData_3D.hpp::PointData::alloc", "scr/liton_point_data/PointData_3D.hpp::PointData::PointData"]}
{"id": "C11", "title": "A successful alloc provides the requested storage", "statement": "If alloc(n,in,p,...) returns normally then the storage holds the product of the requested extents times N elements and size() reports the requested numbers.", "quantifier": "all unsigned size arguments", "why_tests_cant": "needs 2^32-sized requests", "anchors": ["scr/liton_point_data/PointData_1D.hpp::PointData::alloc", "scr/liton_point_data/PointData_1D.hpp::SizeT::SizeT", "scr/liton_point_data/PointData_2D.hpp::PointData::alloc", "scr/liton_point_data/PointData_2D.hpp::SizeT::SizeT", "scr/liton_point_data/PointData_3D.hpp::PointData::alloc", "scr/liton_point_data/PointData_3D.hpp::SizeT::SizeT"]}
{"id": "C12", "title": "Range tags partition the domain", "statement": "range(ALL) is the disjoint union of range(N), range(IN) and range(P) in every dimension, in that order and adjacent; the sizes add up.", "quantifier": "every SizeT within machine range, every index", "why_tests_cant": "all sizes and indices", "anchors": ["scr/liton_point_data/PointData_1D.hpp::SizeT::begin", "scr/liton_point_data/PointData_1D.hpp::SizeT::end", "scr/liton_point_data/PointData_1D.hpp::SizeT::range", "scr/liton_point_data/PointData_2D.hpp::SizeT::begin", "scr/liton_point_data/PointData_2D.hpp::SizeT::end", "scr/liton_point_data/PointData_2D.hpp::SizeT::range", "scr/liton_point_data/PointData_3D.hpp::SizeT::begin", "scr/liton_point_data/PointData_3D.hpp::SizeT::end", "scr/liton_point_data/PointData_3D.hpp::SizeT::range"]}
{"id": "C13", "title": "SizeT accessors are consistent", "statement": "For every tag, last = end-1, size = end-begin, bound(N)=begin, bound(P)=last, and range(tags) has the same begin/end/size/last/bound as the SizeT itself.", "quantifier": "every SizeT within machine range, every tag, every dimension", "why_tests_cant": "all sizes", "anchors": ["scr/liton_point_data/PointData_1D.hpp::SizeT::last", "scr/liton_point_data/PointData_1D.hpp::SizeT::size", "scr/liton_point_data/PointData_1D.hpp::SizeT::bound", "scr/liton_point_data/PointData_1D.hpp::SizeT::range", "scr/liton_point_data/PointData_1D.hpp::RangeT::bound", "scr/liton_point_data/PointData_2D.hpp::SizeT::last", "scr/liton_point_data/PointData_2D.hpp::SizeT::size", "scr/liton_point_data/PointData_2D.hpp::SizeT::bound", "scr/liton_point_data/PointData_2D.hpp::SizeT::range", "scr/liton_point_data/PointData_2D.hpp::RangeT::bound", "scr/liton_point_data/PointData_3D.hpp::SizeT::last", "scr/liton_point_data/PointData_3D.hpp::SizeT::size", "scr/liton_point_data/PointData_3D.hpp::SizeT::bound", "scr/liton_point_data/PointData_3D.hpp::SizeT::range", "scr/liton_point_data/PointData_3D.hpp::RangeT::bound"]}
{"id": "C14", "title": "Mirror index", "statement": "mirror(d,fl,.) is an involution fixing exactly the boundary point of the interior, sends the k-th virtual point beyond a boundary to the k-th interior point inside it, and the image of every virtual point is an interior point iff the number of virtual points on that side is less than the number of interior points.", "quantifier": "every SizeT within machine range, every index", "why_tests_cant": "all sizes and indices", "anchors": ["scr/liton_point_data/PointData_1D.hpp::SizeT::mirror", "scr/liton_point_data/PointData_2D.hpp::SizeT::mirror", "scr/liton_point_data/PointData_3D.hpp::SizeT::mirror"]}
{"id": "C15", "title": "Periodic index", "statement": "periodic(d,N,.) and periodic(d,P,.) are mutually inverse translations by the interior length minus one, identify first and last interior point, and map every virtual point of their side into the interior iff there are fewer virtual points than interior points.", "quantifier": "every SizeT within machine range, every index", "why_tests_cant": "all sizes and indices", "anchors": ["scr/liton_point_data/PointData_1D.hpp::SizeT::periodic", "scr/liton_point_data/PointData_2D.hpp::SizeT::periodic", "scr/liton_point_data/PointData_3D.hpp::SizeT::periodic"]}
{"id": "C16", "title": "RangeT transformations", "statement": "tran shifts the set of points, cut_head removes the first i, cut_tail the last i points; tran/cut operations compose additively, commute, are undone by the negated argument, and cut_head leaves end, cut_tail leaves begin unchanged.", "quantifier": "every range and argument without int overflow", "why_tests_cant": "all ints", "anchors": ["scr/liton_point_data/PointData_1D.hpp::RangeT::tran", "scr/liton_point_data/PointData_1D.hpp::RangeT::cut_head", "scr/liton_point_data/PointData_1D.hpp::RangeT::cut_tail", "scr/liton_point_data/PointData_2D.hpp::RangeT::tran", "scr/liton_point_data/PointData_2D.hpp::RangeT::cut_head", "scr/liton_point_data/PointData_2D.hpp::RangeT::cut_tail", "scr/liton_point_data/PointData_3D.hpp::RangeT::tran", "scr/liton_point_data/PointData_3D.hpp::RangeT::cut_head", "scr/liton_point_data/PointData_3D.hpp::RangeT::cut_tail"]}
{"id": "C17", "title": "is_overlap decides intersection", "statement": "r.is_overlap(q) is true exactly when some point lies in both r and q; it is symmetric.", "quantifier": "every two ranges without int overflow", "why_tests_cant": "all pairs of ranges", "anchors": ["scr/liton_point_data/PointData_1D.hpp::RangeT::is_overlap", "scr/liton_point_data/PointData_2D.hpp::RangeT::is_overlap", "scr/liton_point_data/PointData_3D.hpp::RangeT::is_overlap"]}
{"id": "C18", "title": "overlap is the intersection", "statement": "r.overlap(q) contains exactly the points that lie in both; it is commutative and idempotent; the checked build throws exactly when is_overlap is false.", "quantifier": "every two ranges without int overflow, every point", "why_tests_cant": "all pairs of ranges and points", "anchors": ["scr/liton_point_data/PointData_1D.hpp::RangeT::overlap", "scr/liton_point_data/PointData_2D.hpp::RangeT::overlap", "scr/liton_point_data/PointData_3D.hpp::RangeT::overlap"]}
{"id": "C19", "title": "PD_For visits every point exactly once in lexicographic order", "statement": "PD_For_1D/2D/3D over a range calls the function once for every point of the range, in increasing lexicographic order, and for no other point; an exception in the function stops the loop at that point.", "quantifier": "every range with non-negative sizes, every function", "why_tests_cant": "all ranges and functions with effects", "anchors": ["scr/liton_point_data/PointData_1D.hpp::PD_For_1D", "scr/liton_point_data/PointData_2D.hpp::PD_For_1D", "scr/liton_point_data/PointData_2D.hpp::PD_For_2D", "scr/liton_point_data/PointData_3D.hpp::PD_For_1D", "scr/liton_point_data/PointData_3D.hpp::PD_For_2D", "scr/liton_point_data/PointData_3D.hpp::PD_For_3D"]}
{"id": "C20", "title": "PD_For_N and axis loops", "statement": "PD_For_N*, and the lower-dimensional loops taking explicit axes d0,d1, visit exactly the product of the component interval and the chosen axes' index intervals, components outermost, in order.", "quantifier": "every range, every component interval, every valid axis", "why_tests_cant": "all ranges", "anchors": ["scr/liton_point_data/PointData.hpp::PD_For_N", "scr/liton_point_data/PointData_1D.hpp::PD_For_N_1D", "scr/liton_point_data/PointData_2D.hpp::PD_For_N_1D", "scr/liton_point_data/PointData_2D.hpp::PD_For_N_2D", "scr/liton_point_data/PointData_3D.hpp::PD_For_N_1D", "scr/liton_point_data/PointData_3D.hpp::PD_For_N_2D", "scr/liton_point_data/PointData_3D.hpp::PD_For_N_3D"]}
{"id": "C21", "title": "Loops over inverted ranges", "statement": "A loop over a range whose size is negative (for example after cutting more than the size) runs no iteration.", "quantifier": "every range with negative size", "why_tests_cant": "infinite/undefined behaviour cannot be observed by a test that terminates", "anchors": ["scr/liton_point_data/PointData_1D.hpp::PD_For_1D", "scr/liton_point_data/PointData_1D.hpp::RangeT::cut_tail", "scr/liton_point_data/PointData_2D.hpp::PD_For_1D", "scr/liton_point_data/PointData_2D.hpp::RangeT::cut_tail", "scr/liton_point_data/PointData_3D.hpp::PD_For_1D", "scr/liton_point_data/PointData_3D.hpp::RangeT::cut_tail"]}
{"id": "C22", "title": "Reduce folds in loop order", "statement": "PD_Reduce_* applies the reducer to the values of the function in exactly the order of the corresponding PD_For loop, starting from the caller's variable, writes the caller's variable only at the end, and leaves it unchanged if the function throws.", "quantifier": "every range, every reducer, every function", "why_tests_cant": "all ranges and reducers", "anchors": ["scr/liton_point_data/PointData.hpp::PD_Reduce_N", "scr/liton_point_data/PointData_1D.hpp::PD_Reduce_1D", "scr/liton_point_data/PointData_1D.hpp::PD_Reduce_N_1D", "scr/liton_point_data/PointData_2D.hpp::PD_Reduce_1D", "scr/liton_point_data/PointData_2D.hpp::PD_Reduce_2D", "scr/liton_point_data/PointData_2D.hpp::PD_Reduce_N_1D", "scr/liton_point_data/PointData_2D.hpp::PD_Reduce_N_2D", "scr/liton_point_data/PointData_3D.hpp::PD_Reduce_1D", "scr/liton_point_data/PointData_3D.hpp::PD_Reduce_2D", "scr/liton_point_data/PointData_3D.hpp::PD_Reduce_3D", "scr/liton_point_data/PointData_3D.hpp::PD_Reduce_N_1D", "scr/liton_point_data/PointData_3D.hpp::PD_Reduce_N_2D", "scr/liton_point_data/PointData_3D.hpp::PD_Reduce_N_3D"]}
{"id": "C23", "title": "Sum and product reductions", "statement": "PD_Reduce with PD_RF_SUM (PD_RF_PRO) turns ans into ans + sum (ans * product) of all values of the function over the range.", "quantifier": "every initial value, range and function over exact numbers", "why_tests_cant": "all initial values and ranges", "anchors": ["scr/liton_point_data/PointData.hpp::PD_RF_SUM", "scr/liton_point_data/PointData.hpp::PD_RF_PRO", "scr/liton_point_data/PointData.hpp::PD_Reduce_N", "scr/liton_point_data/PointData_1D.hpp::PD_Reduce_1D", "scr/liton_point_data/PointData_2D.hpp::PD_Reduce_1D", "scr/liton_point_data/PointData_3D.hpp::PD_Reduce_1D"]}
{"id": "C24", "title": "Max and min reductions", "statement": "PD_Reduce with PD_RF_MAX (PD_RF_MIN) turns ans into the maximum (minimum) of ans and all values over the range; the _ABS variants do so with absolute values of the function.", "quantifier": "every initial value, range and function over a linear order", "why_tests_cant": "all ranges and functions", "anchors": ["scr/liton_point_data/PointData.hpp::PD_RF_MAX", "scr/liton_point_data/PointData.hpp::PD_RF_MIN", "scr/liton_point_data/PointData.hpp::PD_RF_MAX_ABS", "scr/liton_point_data/PointData.hpp::PD_RF_MIN_ABS"]}
{"id": "C25", "title": "copy_from copies the overlap", "statement": "x.copy_from(y,R,r,I,i): every point of R whose image under the translation mapping I to i lies in r (plus the closing half point in half dimensions) receives y's value at the image, for every component, and every other element of x keeps its value.", "quantifier": "every two different arrays of any shapes, ranges inside them, every translation", "why_tests_cant": "all shapes, ranges and translations", "anchors": ["scr/liton_point_data/PointData_1D.hpp::PointData::copy_from", "scr/liton_point_data/PointData_2D.hpp::PointData::copy_from", "scr/liton_point_data/PointData_3D.hpp::PointData::copy_from"]}
{"id": "C26", "title": "copy_from leaves the source unchanged", "statement": "When x and y are different arrays, x.copy_from(y,...) does not change any element of y or of any third array, whatever ranges are given, if it returns.", "quantifier": "every call", "why_tests_cant": "all shapes and ranges", "anchors": ["scr/liton_point_data/PointData_1D.hpp::PointData::copy_from", "scr/liton_point_data/PointData_2D.hpp::PointData::copy_from", "scr/liton_point_data/PointData_3D.hpp::PointData::copy_from"]}
{"id": "C27", "title": "Self copy", "statement": "In the checked build, x.copy_from(x,R,r,I,i) either throws or has the effect of a simultaneous assignment: no element that is read is also written, so the result does not depend on the loop order.", "quantifier": "every array, all ranges and translations", "why_tests_cant": "all ranges and translations", "anchors": ["scr/liton_point_data/PointData_1D.hpp::PointData::copy_from", "scr/liton_point_data/PointData_2D.hpp::PointData::copy_from", "scr/liton_point_data/PointData_3D.hpp::PointData::copy_from"]}
{"id": "C28", "title": "Tagged copy_from stays inside the arrays", "statement": "copy_from called with range tags (N, P, IN, ALL) on allocated arrays never reads or writes outside the arrays' storage, whatever anchor indices are given.", "quantifier": "every pair of allocated arrays, tags and anchors", "why_tests_cant": "all shapes and anchors", "anchors": ["scr/liton_point_data/PointData_1D.hpp::PointData::copy_from", "scr/liton_point_data/PointData_2D.hpp::PointData::copy_from", "scr/liton_point_data/PointData_3D.hpp::PointData::copy_from"]}
{"id": "C29", "title": "Flag-anchored copy_from", "statement": "copy_from called with direction flags aligns the begin (flag N) or the last point (flag P) of the target range with that of the source range in each dimension: the element k places from the aligned end receives the source element k places from the aligned end.", "quantifier": "every pair of arrays, tags, flags", "why_tests_cant": "all shapes", "anchors": ["scr/liton_point_data/PointData_1D.hpp::PointData::copy_from", "scr/liton_point_data/PointData_2D.hpp::PointData::copy_from", "scr/liton_point_data/PointData_3D.hpp::PointData::copy_from"]}
{"id": "C30", "title": "copy_from with disjoint zones in an unchecked build", "statement": "Without range checking, copy_from whose zones do not meet copies nothing.", "quantifier": "every pair of zones that do not meet", "why_tests_cant": "undefined behaviour cannot be tested", "anchors": ["scr/liton_point_data/PointData_1D.hpp::PointData::copy_from", "scr/liton_point_data/PointData_1D.hpp::RangeT::overlap", "scr/liton_point_data/PointData_2D.hpp::PointData::copy_from", "scr/liton_point_data/PointData_2D.hpp::RangeT::overlap", "scr/liton_point_data/PointData_3D.hpp::PointData::copy_from", "scr/liton_point_data/PointData_3D.hpp::RangeT::overlap"]}
{"id": "C31", "title": "Flag and range conversions", "statement": "The flra conversions are mutually consistent: complement is an involution exchanging N and P, flag-to-range and range-to-flag are inverse, and the _c variants are the complement of the plain ones.", "quantifier": "every flag and range tag", "why_tests_cant": "it is a law over the whole table", "anchors": ["scr/liton_point_data/PointData.hpp::flra"]}
{"id": "C32", "title": "Dimension argument check", "statement": "In the checked build every accessor taking a dimension d throws iff d is not below the dimension of the namespace, and has no other effect; accessors with valid d never throw.", "quantifier": "every unsigned d, every accessor", "why_tests_cant": "2^32 values of d", "anchors": ["scr/liton_point_data/PointData_0D.hpp::DIM::check_d", "scr/liton_point_data/PointData_1D.hpp::DIM::check_d", "scr/liton_point_data/PointData_2D.hpp::DIM::check_d", "scr/liton_point_data/PointData_3D.hpp::DIM::check_d"]}
{"id": "C33", "title": "disp_data prints every stored point once, in storage order", "statement": "disp_data writes every stored element exactly once: per point all components for 1D, per component all points in row-major order for 2D and 3D, with the documented separators, and touches nothing else.", "quantifier": "every allocated array", "why_tests_cant": "all shapes", "anchors": ["scr/liton_point_data/PointData_1D.hpp::PointData::disp_data", "scr/liton_point_data/PointData_2D.hpp::PointData::disp_data", "scr/liton_point_data/PointData_3D.hpp::PointData::disp_data"]}
{"id": "C34", "title": "0D arrays", "statement": "A 0D array holds N independent values: a write to one is read back and changes no other; checked access throws iff n>=N.", "quantifier": "every N, every n", "why_tests_cant": "all n", "anchors": ["scr/liton_point_data/PointData_0D.hpp::PointData::operator()", "scr/liton_point_data/PointData_0D.hpp::PointData::PointData"]}
{"id": "C35", "title": "Real size of a Tecplot zone", "statement": "For a zone with positive Skip and non-negative Begin, End, Real_Max[i] is the number of indices Begin, Begin+Skip, ... below Max-End, is at least 1, and equals Max when nothing is skipped or excluded; Real_Dim and Dim count the non-unit extents; invalid settings are rejected.", "quantifier": "every zone setting within int range", "why_tests_cant": "all settings", "anchors": ["scr/liton_ordered_tec/ordered_tec.cpp::TEC_ZONE::gather_real_size"]}
{"id": "C36", "title": "Zone buffers contain exactly the selected points", "statement": "The buffer written to file for a variable contains, in the file's order (first index fastest), exactly the selected points' bytes; building it never reads outside the user's array of Max[0]*Max[1]*Max[2] elements nor writes outside the buffer.", "quantifier": "every valid zone setting, every data type size, every data", "why_tests_cant": "all strides and extents", "anchors": ["scr/liton_ordered_tec/ordered_tec.cpp::TEC_ZONE::make_buf"]}
{"id": "C37", "title": "Written minimum and maximum", "statement": "The minimum and maximum recorded for a variable are values of the data and bound all of them.", "quantifier": "every non-empty data vector over a linear order", "why_tests_cant": "all lengths and values", "anchors": ["scr/liton_ordered_tec/ordered_tec.cpp::get_minmax"]}
{"id": "C38", "title": "The log locates the data", "statement": "After write_plt, for every zone and variable the log's file_pt is the byte position at which that variable's block starts in the .plt file, and the following size*Real_Max product bytes are exactly the selected data; blocks do not overlap and lie inside the file.", "quantifier": "every file content: any number of zones, variables, auxiliary data, names", "why_tests_cant": "all file contents", "anchors": ["scr/liton_ordered_tec/ordered_tec.cpp::TEC_FILE::write_plt", "scr/liton_ordered_tec/ordered_tec.cpp::TEC_ZONE::write_plt_data"]}
{"id": "C39", "title": "write_plt / read_plt round trip", "statement": "Writing an array's interior with write_plt and reading it back with read_plt into an array with at least as many interior points in each dimension reproduces every interior value in every component, and changes no other point and no other component of the target.", "quantifier": "every shape, any virtual points on both sides, any position of the variable in the file", "why_tests_cant": "all shapes", "anchors": ["scr/liton_ordered_tec/ordered_tec.cpp::TEC_FILE::write_plt", "scr/liton_point_data/PointData_1D.hpp::PointData::read_plt", "scr/liton_point_data/PointData_2D.hpp::PointData::read_plt", "scr/liton_point_data/PointData_3D.hpp::PointData::read_plt"]}
{"id": "C40", "title": "A failing read_plt changes nothing", "statement": "If read_plt throws (bad zone, size mismatch, unknown variable, missing or short file, unsupported type) the target array is unchanged and no buffer is leaked.", "quantifier": "every target, every log, every file content", "why_tests_cant": "all failure points", "anchors": ["scr/liton_point_data/PointData_1D.hpp::PointData::read_plt", "scr/liton_point_data/PointData_2D.hpp::PointData::read_plt", "scr/liton_point_data/PointData_3D.hpp::PointData::read_plt"]}
{"id": "C41", "title": "write_plt validates before touching the disk", "statement": "If variables or zones are empty, or a zone's size or data is invalid, write_plt throws without creating or truncating the .plt file and records the message in last_log.Error.", "quantifier": "every file object", "why_tests_cant": "all invalid configurations", "anchors": ["scr/liton_ordered_tec/ordered_tec.cpp::TEC_FILE::write_plt", "scr/liton_ordered_tec/ordered_tec.cpp::TEC_FILE::wrtie_plt_pre", "scr/liton_ordered_tec/ordered_tec.cpp::TEC_ZONE::wrtie_plt_pre"]}
{"id": "C42", "title": "Header strings are decodable", "statement": "The .plt header is uniquely decodable: title, variable names, zone names, auxiliary data and sizes can be recovered from the bytes when the texts contain no NUL character.", "quantifier": "every file object", "why_tests_cant": "all strings", "anchors": ["scr/liton_ordered_tec/ordered_tec.cpp::TEC_FILE::write_plt_head", "scr/liton_ordered_tec/ordered_tec.cpp::TEC_ZONE::write_plt_head", "scr/liton_ordered_tec/ordered_tec.cpp::W_STRING"]}
{"id": "C43", "title": "Auxiliary data", "statement": "add_auxiliary_data returns true and stores the value iff the name was not present; otherwise it returns false and the first value is kept; other names are unaffected.", "quantifier": "every history of additions", "why_tests_cant": "unbounded histories", "anchors": ["scr/liton_ordered_tec/ordered_tec.cpp::TEC_FILE::add_auxiliary_data", "scr/liton_ordered_tec/ordered_tec.cpp::TEC_ZONE::add_auxiliary_data"]}
{"id": "C44", "title": "Echo mode codes", "statement": "set_echo_mode accepts exactly the named modes, 'leave' and strings of 0/1; bit k of the resulting mask is the k-th character from the right of the (truncated) code; rejected codes throw and leave the mask unchanged.", "quantifier": "every string", "why_tests_cant": "all strings", "anchors": ["scr/liton_ordered_tec/ordered_tec.cpp::TEC_FILE::echo_mode", "scr/liton_ordered_tec/ordered_tec.cpp::TEC_ZONE::echo_mode", "scr/liton_ordered_tec/ordered_tec.cpp::TEC_FILE::set_echo_mode"]}
{"id": "C45", "title": "Log text splicing is in bounds", "statement": "write_echo, write_json and write_xml of a log produced by write_plt never run past the zone list and splice each zone's text exactly once, in order, at its place.", "quantifier": "every successfully written file", "why_tests_cant": "all zone counts and names", "anchors": ["scr/liton_ordered_tec/ordered_tec.cpp::TEC_FILE_LOG::write_echo", "scr/liton_ordered_tec/ordered_tec.cpp::TEC_FILE_LOG::write_json", "scr/liton_ordered_tec/ordered_tec.cpp::TEC_FILE_LOG::write_xml", "scr/liton_ordered_tec/ordered_tec.cpp::TEC_FILE_LOG::gen_json", "scr/liton_ordered_tec/ordered_tec.cpp::TEC_FILE_LOG::gen_xml"]}
{"id": "C46", "title": "Formatting never overruns its buffer", "statement": "Generating the json and xml log texts never writes past the 200 byte line buffer.", "quantifier": "every name, path, title and auxiliary text", "why_tests_cant": "all string lengths", "anchors": ["scr/liton_ordered_tec/ordered_tec.cpp::TEC_FILE_LOG::gen_json", "scr/liton_ordered_tec/ordered_tec.cpp::TEC_FILE_LOG::gen_xml", "scr/liton_ordered_tec/ordered_tec.cpp::TEC_ZONE_LOG::gen_json", "scr/liton_ordered_tec/ordered_tec.cpp::TEC_ZONE_LOG::gen_xml"]}
{"id": "C47", "title": "Virtual point filling", "statement": "Filling the virtual points of one side by looping over range(N) or range(P) with mirror or periodic sources reads interior points only, and afterwards every virtual point of that side holds its source's interior value, provided there are fewer virtual than interior points.", "quantifier": "every shape, every component", "why_tests_cant": "all shapes", "anchors": ["scr/liton_point_data/PointData_1D.hpp::SizeT::mirror", "scr/liton_point_data/PointData_1D.hpp::SizeT::periodic", "scr/liton_point_data/PointData_1D.hpp::PD_For_1D", "scr/liton_point_data/PointData_1D.hpp::PointData::operator()", "scr/liton_point_data/PointData_2D.hpp::SizeT::mirror", "scr/liton_point_data/PointData_2D.hpp::SizeT::periodic", "scr/liton_point_data/PointData_2D.hpp::PD_For_1D", "scr/liton_point_data/PointData_2D.hpp::PointData::operator()", "scr/liton_point_data/PointData_3D.hpp::SizeT::mirror", "scr/liton_point_data/PointData_3D.hpp::SizeT::periodic", "scr/liton_point_data/PointData_3D.hpp::PD_For_1D", "scr/liton_point_data/PointData_3D.hpp::PointData::operator()"]}
{"id": "C48", "title": "exec_except and exec_time", "statement": "exec_except runs the expression exactly once, never lets a std::exception escape, and writes 'no exception' or 'with exception' according to what happened; exec_time runs the expression exactly N times.", "quantifier": "every expression, every N", "why_tests_cant": "all behaviours of the expression", "anchors": ["scr/liton_cpp_snippets/lion_snippets.hpp::debug::exec_except", "scr/liton_cpp_snippets/lion_snippets.hpp::debug::exec_time"]}
{"id": "C49", "title": "Report of write_plt", "statement": "A successful write_plt prints (if echo is on) exactly the lines that the echo flags of the file and of its zones select, in order, with the right numbers, names and sizes; write_echo of the log gives the same report.", "quantifier": "every list of zones and variables, every combination of echo flags, every selection", "why_tests_cant": "all combinations of 7 + 9n flags, all sizes, all names", "anchors": ["scr/liton_ordered_tec/ordered_tec.cpp::TEC_FILE::write_plt", "scr/liton_ordered_tec/ordered_tec.cpp::TEC_FILE::write_plt_head", "scr/liton_ordered_tec/ordered_tec.cpp::TEC_FILE::write_plt_data", "scr/liton_ordered_tec/ordered_tec.cpp::TEC_ZONE::write_plt_data", "scr/liton_ordered_tec/ordered_tec.cpp::TEC_FILE_LOG::write_echo"]}
{"id": "C50", "title": "write_plt is defined and complete", "statement": "For data that really are there and texts short enough for the line buffers, write_plt does nothing undefined, whatever the settings; if the settings are valid and the file can be opened it succeeds unless memory runs out, which it reports as a runtime error.", "quantifier": "every list of zones and variables, every selection, every memory", "why_tests_cant": "all settings, all allocation failures", "anchors": ["scr/liton_ordered_tec/ordered_tec.cpp::TEC_FILE::write_plt", "scr/liton_ordered_tec/ordered_tec.cpp::TEC_FILE::wrtie_plt_pre", "scr/liton_ordered_tec/ordered_tec.cpp::TEC_ZONE::write_plt_data", "scr/liton_ordered_tec/ordered_tec.cpp::TEC_ZONE::make_buf"]}
{"id": "C51", "title": "Length of the file and logged facts", "statement": "After a successful write_plt the file has exactly the length given by the format; the log holds this length, for every zone the length of its data section, begin, end and duration, and no error.", "quantifier": "every list of zones and variables, every selection", "why_tests_cant": "all settings", "anchors": ["scr/liton_ordered_tec/ordered_tec.cpp::TEC_FILE::write_plt", "scr/liton_ordered_tec/ordered_tec.cpp::TEC_FILE::write_plt_data", "scr/liton_ordered_tec/ordered_tec.cpp::TEC_ZONE::write_plt_data"]}
{"id": "C52", "title": "tinyxml2 reads what a text shows", "statement": "Every text made of nested elements with quoted attributes, texts without special characters, comments and white space is loaded as exactly the tree it shows, with or without a declaration before it.", "quantifier": "every tree, every text that shows it, every amount of white space", "why_tests_cant": "all trees and all layouts", "anchors": ["scr/tinyxml2/tinyxml2.cpp::XMLDocument::LoadFile", "scr/tinyxml2/tinyxml2.cpp::XMLDocument::Parse", "scr/tinyxml2/tinyxml2.cpp::XMLNode::ParseDeep", "scr/tinyxml2/tinyxml2.cpp::XMLElement::ParseAttributes", "scr/tinyxml2/tinyxml2.cpp::StrPair::GetStr"]}
{"id": "C53", "title": "The xml log can be loaded", "statement": "The xml that gen_xml and write_xml produce for a log is loaded by load_xml as the tree of the log: every name, text and number is found in its place.", "quantifier": "every log, every indentation, every file system", "why_tests_cant": "all names, titles, auxiliary data, numbers of zones and variables", "anchors": ["scr/liton_ordered_tec/ordered_tec.cpp::TEC_FILE_LOG::gen_xml", "scr/liton_ordered_tec/ordered_tec.cpp::TEC_ZONE_LOG::gen_xml", "scr/liton_ordered_tec/ordered_tec.cpp::TEC_FILE_LOG::write_xml", "scr/liton_cpp_snippets/lion_snippets.hpp::xml::load_xml"]}
{"id": "C54", "title": "read_xml restores the log", "statement": "read_xml of the tree of a log returns a log with the same content (real numbers as printed), and this log gives the same xml text again.", "quantifier": "every log", "why_tests_cant": "all logs, in particular texts that are empty or blank", "anchors": ["scr/liton_ordered_tec/ordered_tec.cpp::TEC_FILE_LOG::read_xml", "scr/liton_ordered_tec/ordered_tec.cpp::TEC_ZONE_LOG::read_xml"]}
{"id": "C56", "title": "Failures of the xml interface", "statement": "load_xml and get_xmlnode throw exactly the documented exceptions and otherwise return the first element of the wanted name; read_xml never throws, needs all nodes it asks for, and adds to the log instead of replacing it; on any tree at all it either finds the log that the tree holds (first element of each name, last value of each auxiliary name, leading number of each text) or is undefined.", "quantifier": "every file system, every tree, every name, every log", "why_tests_cant": "all malformed files", "anchors": ["scr/liton_cpp_snippets/lion_snippets.hpp::xml::load_xml", "scr/liton_cpp_snippets/lion_snippets.hpp::xml::check_xmlnode", "scr/liton_cpp_snippets/lion_snippets.hpp::xml::get_xmlnode", "scr/liton_ordered_tec/ordered_tec.cpp::TEC_FILE_LOG::read_xml"]}
{"id": "C57", "title": "Escaped texts are restored", "statement": "A text in which the five special characters are replaced by entities is loaded as the original text, between tags and as value of an attribute.", "quantifier": "every text without NUL and carriage return", "why_tests_cant": "all texts", "anchors": ["scr/tinyxml2/tinyxml2.cpp::StrPair::GetStr", "scr/tinyxml2/tinyxml2.cpp::XMLAttribute::ParseDeep"]}
{"id": "C55", "title": "Saved file and saved log give the data back", "statement": "Write an array with write_plt, write its log with write_xml, load and read that log with load_xml and read_xml, and read the array with read_plt from the log that was read into an array with at least as many interior points in each dimension: every point of the written block has the converted value of the source, nothing else changes.", "quantifier": "every array, zone, variable, indentation and file system; texts that need no escaping", "why_tests_cant": "the chain of five functions over all sizes, names and numbers", "anchors": ["scr/liton_ordered_tec/ordered_tec.cpp::TEC_FILE::write_plt", "scr/liton_ordered_tec/ordered_tec.cpp::TEC_FILE_LOG::write_xml", "scr/liton_cpp_snippets/lion_snippets.hpp::xml::load_xml", "scr/liton_ordered_tec/ordered_tec.cpp::TEC_FILE_LOG::read_xml", "scr/liton_point_data/PointData_2D.hpp::PointData::read_plt"]}
{"id": "C58", "title": "The log describes the written file", "statement": "After write_plt the log repeats every setting of the file, its zones and variables, and tells the sizes, dimensions, positions, extreme values, times and flags that were computed.", "quantifier": "every file that was written", "why_tests_cant": "all numbers of zones and variables, all selections", "anchors": ["scr/liton_ordered_tec/ordered_tec.cpp::TEC_FILE_LOG::TEC_FILE_LOG", "scr/liton_ordered_tec/ordered_tec.cpp::TEC_ZONE_LOG::TEC_ZONE_LOG", "scr/liton_ordered_tec/ordered_tec.cpp::TEC_ZONE::wrtie_plt_pre", "scr/liton_ordered_tec/ordered_tec.cpp::TEC_FILE::write_plt"]}
{"id": "C59", "title": "The json log is JSON with the content of the log", "statement": "The text that write_json writes for a log is a JSON text (RFC 8259), and its value has every member of the log: names, path, time, type, variables, auxiliary data, and for every zone its sizes, selection and variables. The indentation does not matter, and a text has one value at most.", "quantifier": "every log, every depth of indentation, every number of zones, variables and auxiliary data", "why_tests_cant": "commas between any number of entries, any text and any number printed into the log", "anchors": ["scr/liton_ordered_tec/ordered_tec.cpp::TEC_FILE_LOG::gen_json", "scr/liton_ordered_tec/ordered_tec.cpp::TEC_ZONE_LOG::gen_json", "scr/liton_ordered_tec/ordered_tec.cpp::TEC_FILE_LOG::write_json", "scr/liton_ordered_tec/ordered_tec.cpp::TEC_ZONE_LOG::write_json"]}
{"id": "C60", "title": "The whole file can be decoded", "statement": "The file written by write_plt is a complete file of the binary format and nothing else: a reader written from the description of the format decodes it without a byte left over and finds the texts and sizes of the header, for every zone the types of the variables, for every variable the bits of the values of the selected points in the order first index fastest, and, if these are finite, their exact minimum and maximum.", "quantifier": "all files, zones, variables, types, sizes, selections, values", "why_tests_cant": "any number of zones and variables of mixed types, any selection, any bits", "anchors": ["scr/liton_ordered_tec/ordered_tec.cpp::TEC_FILE::write_plt", "scr/liton_ordered_tec/ordered_tec.cpp::TEC_FILE::write_plt_data", "scr/liton_ordered_tec/ordered_tec.cpp::TEC_ZONE::write_plt_data"]}
{"id": "C61", "title": "TEC_DATA(T *) takes exactly the five types of Tecplot", "statement": "The constructor accepts a pointer exactly if it points to float, double, int, short or signed char, const or not; it then records the matching type code and the size of the elements. Every other type is refused with an exception that names it.", "quantifier": "all object types, all qualifiers, all pointers", "why_tests_cant": "every type a program can define", "anchors": ["scr/liton_ordered_tec/ordered_tec.h::TEC_DATA::TEC_DATA"]}
{"id": "C62", "title": "Row-major accessors", "statement": "Max_C, Begin_C, End_C and Skip_C of a zone with DIM dimensions access dimension d counted from the last and nothing else; with the sizes of a C array set through Max_C, element a[i][j][k] is at the place the zone expects. They are defined exactly if DIM - 1 - d, computed in unsigned, is below 3.", "quantifier": "all DIM, d, zones, sizes", "why_tests_cant": "all unsigned numbers, with wrap around", "anchors": ["scr/liton_ordered_tec/ordered_tec.h::TEC_ZONE_BASE::Max_C", "scr/liton_ordered_tec/ordered_tec.h::TEC_ZONE_BASE::Begin_C", "scr/liton_ordered_tec/ordered_tec.h::TEC_ZONE_BASE::End_C", "scr/liton_ordered_tec/ordered_tec.h::TEC_ZONE_BASE::Skip_C"]}
{"id": "C63", "title": "The numbers printed in the log are right to seven digits", "statement": "In the log of a file written by write_plt, the texts of minimum and maximum of a variable with finite values denote the exact minimum and maximum of the selected values up to a relative error of 5e-7, and UsingTime is printed with an absolute error of at most 5e-6. If all numbers are finite and the texts need no escaping, the json of the log is a JSON text with the content of the log.", "quantifier": "all files, zones, variables, types, selections, finite values (all patterns of double)", "why_tests_cant": "2^64 numbers, rounding ties and carries, any number of points", "anchors": ["scr/liton_ordered_tec/ordered_tec.cpp::TEC_FILE_LOG::gen_json", "scr/liton_ordered_tec/ordered_tec.cpp::TEC_ZONE_LOG::gen_json", "scr/liton_ordered_tec/ordered_tec.cpp::TEC_ZONE_LOG::gen_xml", "scr/liton_ordered_tec/ordered_tec.cpp::TEC_FILE::write_plt"]}
{"id": "C64", "title": "The numbers of an xml log survive writing and reading to 1e-6", "statement": "The log of a file written by write_plt, written as xml, loaded and read with read_xml, has as minimum and maximum of a variable with finite values the exact minimum and maximum of the selected values up to a relative error of 1e-6; the same for the time of a zone with a strand; UsingTime has an absolute error of at most 1e-5. Infinities come back as they were and NaNs as NaNs.", "quantifier": "all files, zones, variables, types, selections, finite values (all patterns of double)", "why_tests_cant": "2^64 numbers through two roundings", "anchors": ["scr/liton_ordered_tec/ordered_tec.cpp::TEC_ZONE_LOG::gen_xml", "scr/liton_ordered_tec/ordered_tec.cpp::TEC_ZONE_LOG::read_xml", "scr/liton_ordered_tec/ordered_tec.cpp::TEC_FILE_LOG::gen_xml", "scr/liton_ordered_tec/ordered_tec.cpp::TEC_FILE_LOG::read_xml", "scr/tinyxml2/tinyxml2.cpp::XMLUtil::ToDouble"]}
{"id": "C65", "title": "A loop with independent iterations does each of them", "statement": "A PD_For loop over x.size().range(ts...) whose body is a list of assignments between elements, all accesses being to elements that exist and no iteration writing what another one reads or writes, runs through; every element an iteration assigns then has the value this iteration alone computes from the values before the loop, and all other elements are unchanged. If an iteration reads an element that was never assigned, the loop is undefined.", "quantifier": "all reachable states, arrays, dimensions, zones, bodies, arithmetic", "why_tests_cant": "unbounded number of bodies, sizes and arithmetic; order of the iterations", "anchors": ["scr/liton_point_data/PointData_1D.hpp::PD_For_1D", "scr/liton_point_data/PointData_2D.hpp::PD_For_2D", "scr/liton_point_data/PointData_3D.hpp::PD_For_3D", "test/Example_D1_heat/Example_D1_heat.cpp::main"]}
{"id": "C66", "title": "The loop of Example_D1_heat is the explicit scheme", "statement": "m passes of the loop of Example_D1_heat run through; the interior of component 0 of u then holds m steps of U(i) + dt*(a*(U(i-1) - 2*U(i) + U(i+1))) with U continued by reflection at the ends, and only component 0 of u and dudt has changed.", "quantifier": "all numbers of points and passes, all numbers of virtual points, any addition, subtraction, multiplication", "why_tests_cant": "unbounded numbers of points and passes, any arithmetic", "anchors": ["test/Example_D1_heat/Example_D1_heat.cpp::main"]}
{"id": "C67", "title": "Example_D1_heat as a whole", "statement": "From the start, with N >= 2 points, the arrays getting their memory, the program reaches the end of its last loop without error or undefined behaviour; x, u(0,.) and u(1,.) then hold the coordinates, the result of the scheme after the passes of the second call of the lambda, and the exact solution. u(1,-1) and u(1,N) are never assigned, yet printed.", "quantifier": "all N, all numbers of passes, any arithmetic", "why_tests_cant": "one N and one arithmetic per run; an indeterminate value looks like any other", "anchors": ["test/Example_D1_heat/Example_D1_heat.cpp::main", "scr/liton_cpp_snippets/lion_snippets.hpp::exec_time", "scr/liton_point_data/PointData_1D.hpp::disp_data"]}
{"id": "C68", "title": "Example_D1_heat in exact arithmetic conserves heat and keeps the bounds", "statement": "If the numbers form an ordered field and dt*a lies between 0 and 1/2 (the program has 1/10), what Example_D1_heat leaves in u(0,.) lies between any bounds of the initial values and has the same integral by the trapezoidal rule as they.", "quantifier": "all N, all numbers of passes, all ordered fields", "why_tests_cant": "unbounded numbers of points and passes", "anchors": ["test/Example_D1_heat/Example_D1_heat.cpp::main"]}
{"id": "C69", "title": "Describing arrays to a zone selects their interior", "statement": "For an allocated array x without half-located dimensions, the assignments Max_C(D,d) = x.size().size(d, RA::ALL), Begin_C(D,d) = ... RA::N, End_C(D,d) = ... RA::P for all d, in any order and mixed with any Data.push_back(TEC_DATA(y.data_pt(n))), run through, leave the arrays alone, select exactly the interior points of x with the last index along the first dimension of the file, and make the variables of the zone those components in the order of the calls.", "quantifier": "all reachable states, arrays, dimensions, orders of the statements, element types", "why_tests_cant": "unbounded number of sizes and orders; the tests use one set of sizes per dimension", "anchors": ["scr/liton_ordered_tec/ordered_tec.h::TEC_ZONE", "scr/liton_ordered_tec/ordered_tec.h::TEC_DATA", "scr/liton_point_data/PointData_1D.hpp::data_pt", "scr/liton_point_data/PointData_2D.hpp::data_pt", "scr/liton_point_data/PointData_3D.hpp::data_pt", "test/Example_D2_heat/Example_D2_heat.cpp::main"]}
{"id": "C70", "title": "Arrays described to a zone are what the file holds", "statement": "If the arrays described to a zone (C69) are then filled by statements that keep the objects, all interior points of the variables being assigned, write_plt returns or throws for lack of memory; when it returns, the file is a file of the format whose zone holds, variable by variable, exactly the numbers of the interior points, the last index fastest.", "quantifier": "all reachable states, arrays, sizes with at most 2^31-1 points, element types, fillings", "why_tests_cant": "unbounded number of sizes and fillings; an index error shows only in the numbers of the file", "anchors": ["scr/liton_ordered_tec/ordered_tec.cpp::TEC_FILE::write_plt", "scr/liton_ordered_tec/ordered_tec.cpp::TEC_ZONE::write_plt_data", "test/Example_D2_heat/Example_D2_heat.cpp::main"]}
{"id": "C71", "title": "The loop of Example_D2_heat is the explicit scheme", "statement": "m passes of the loop of Example_D2_heat run through; the interior of component 0 of u then holds m steps of the explicit scheme for the heat equation in two directions, continued oddly at the ends of the first direction and by reflection at those of the second, and only component 0 of u and dudt has changed.", "quantifier": "all numbers of points, virtual points and passes, any arithmetic", "why_tests_cant": "unbounded numbers of points and passes, any arithmetic", "anchors": ["test/Example_D2_heat/Example_D2_heat.cpp::main"]}
{"id": "C72", "title": "Example_D2_heat as a whole, up to the file", "statement": "From the start, with Nx, Ny >= 2, the arrays getting their memory, the program reaches write_plt without error or undefined behaviour; write_plt returns or throws for lack of memory; when it returns, ./untitled_file.plt is a file of the format with the variables x, y, u1, u2 and one zone of Ny x Nx x 1 points, and holds the coordinates, m steps of the scheme from the initial values, and the exact solution.", "quantifier": "all Nx, Ny with fewer than 2^32 elements, all numbers of passes, any arithmetic", "why_tests_cant": "one size and one arithmetic per run; nothing looks at the numbers in the file", "anchors": ["test/Example_D2_heat/Example_D2_heat.cpp::main", "scr/liton_ordered_tec/ordered_tec.cpp::TEC_FILE::write_plt"]}
{"id": "C73", "title": "Example_D2_heat in exact arithmetic keeps the bounds", "statement": "If the numbers form an ordered field, with the dt of the program and initial values between -1 and 1 all numbers of the variable u1 in the file lie between -1 and 1.", "quantifier": "all Nx, Ny of at least 2, all numbers of passes, all ordered fields", "why_tests_cant": "unbounded numbers of points and passes", "anchors": ["test/Example_D2_heat/Example_D2_heat.cpp::main"]}
{"id": "C75", "title": "Reductions of array elements in programs", "statement": "PD_Reduce_?D over x.size().range(ts...) of an expression of array elements, in any reachable state where every element named exists and holds a number, leaves the arrays as they are and sets the variable to what the reducer makes of the numbers taken in the lexicographic order of the points, starting from the variable, and then of the result and the variable; for PD_RF_SUM on a variable that is 0 this is the sum, for PD_RF_MAX / PD_RF_MIN the greatest / least. If a number was never assigned, it is undefined.", "quantifier": "all reachable states, arrays of 1, 2, 3 dimensions, range tags, expressions, reducers, variables", "why_tests_cant": "unbounded sizes; order of evaluation and double counting show only with particular reducers", "anchors": ["scr/liton_point_data/PointData_1D.hpp::PD_Reduce_1D", "scr/liton_point_data/PointData_2D.hpp::PD_Reduce_2D", "scr/liton_point_data/PointData_3D.hpp::PD_Reduce_3D", "scr/liton_point_data/PointData.hpp::PD_RF_SUM"]}
{"id": "C76", "title": "Example_D1_integration as a whole", "statement": "From the start, with N >= 1 points and the two arrays getting their memory, the program runs through; each of the 100 calls of the lambda prints two answers, the sums of the coordinates and of their roots added up from the first point to the last, divided by N - 1; the time is the sum of the times measured divided by 100.", "quantifier": "all N with 2N an int, any arithmetic, any clock", "why_tests_cant": "one N and one arithmetic per run", "anchors": ["test/Example_D1_integration/Example_D1_integration.cpp::main", "scr/liton_cpp_snippets/lion_snippets.hpp::exec_time", "scr/liton_point_data/PointData.hpp::PD_For_N"]}
{"id": "C77", "title": "Example_D1_integration in exact arithmetic", "statement": "If the numbers form an ordered field and root is the square root, the first answer is N / (2(N-1)), which exceeds the integral 1/2 by 1/(2(N-1)); the second lies between the integral 2/3 and 2/3 + 1/(N-1).", "quantifier": "all N >= 2 with 2N an int, all ordered fields with square roots", "why_tests_cant": "the error bound is a statement about all N", "anchors": ["test/Example_D1_integration/Example_D1_integration.cpp::main"]}
{"id": "C74", "title": "Saving arrays and loading them", "statement": "Arrays described to a zone, filled, and written by a write_plt that returned; then any of the variables, in any order, read by their names with read_plt into different components of one array with at least as many interior points in each dimension: if the buffer gets its memory all calls return, the interior of every component read is the converted interior of the source, every other element of every array and all sizes are as before, and all buffers have been given back.", "quantifier": "all reachable states, dimensions 1-3, sizes, virtual points and locations on either side, variables, orders of reading, number types float and double on either side", "why_tests_cant": "unbounded sizes and states; a test checks one file", "anchors": ["scr/liton_ordered_tec/ordered_tec.cpp::TEC_FILE::write_plt", "scr/liton_point_data/PointData_1D.hpp::read_plt", "scr/liton_point_data/PointData_2D.hpp::read_plt", "scr/liton_point_data/PointData_3D.hpp::read_plt"]}
{"id": "C78", "title": "Loops whose body stays at its point", "statement": "A PD_For_?D over x.size().range(ts...) whose body is a list of assignments between elements at the loop's own point (of components that have all points of the loop, without half-located dimensions), in any reachable state, leaves at every point of the range what the assignments one after another give there, from the values before the loop; all other elements are as before. If an assignment takes a number that was never assigned, the loop is undefined.", "quantifier": "all reachable states, dimensions 1-3, sizes, range tags, bodies", "why_tests_cant": "unbounded sizes and bodies; interference of iterations shows only in particular programs", "anchors": ["scr/liton_point_data/PointData_1D.hpp::PD_For_1D", "scr/liton_point_data/PointData_2D.hpp::PD_For_2D", "scr/liton_point_data/PointData_3D.hpp::PD_For_3D"]}
{"id": "C79", "title": "Test_D1_tecfile, Test_D2_tecfile, Test_D3_tecfile up to the loaded data", "statement": "From the start, with any sizes of at least one interior point and all memory granted, the programs run through: the loop, write_plt and the read_plt calls return; the file has one zone, whose variables are the coordinates i/(N-1) and their half and square (one dimension), or their sum and product (two and three dimensions), at the interior points; the array loaded has these values in its components, and all buffers have been given back.", "quantifier": "all sizes with fewer than 2^32/5 points, any arithmetic, any eight-byte representation of the numbers, any report formats", "why_tests_cant": "the programs run one size each and print numbers nobody compares", "anchors": ["test/Test_D1_tecfile/Test_D1_tecfile.cpp::main", "test/Test_D2_tecfile/Test_D2_tecfile.cpp::main", "test/Test_D3_tecfile/Test_D3_tecfile.cpp::main"]}
{"id": "C80", "title": "The XML reader reads documents of every kind", "statement": "A text that shows a document - declarations, comments, CDATA sections, unknown nodes, elements with attributes, texts between the elements and outside of them (not at the very end, and at the start not with white space or a second byte order mark), with the five entities, references to characters (decimal and hexadecimal, read as UTF-8) and newlines of all kinds (LF, CR, CR LF, LF CR) anywhere in texts and values, white space where it does not matter, a byte order mark or none - is loaded by XMLDocument::LoadFile as exactly this document.", "quantifier": "all documents and all texts that show them", "why_tests_cant": "unbounded texts; nesting and mixtures of kinds of nodes", "anchors": ["scr/tinyxml2/tinyxml2.cpp::XMLDocument::Parse", "scr/tinyxml2/tinyxml2.cpp::XMLNode::ParseDeep", "scr/tinyxml2/tinyxml2.cpp::XMLDocument::Identify", "scr/tinyxml2/tinyxml2.cpp::StrPair::GetStr"]}
{"id": "C81", "title": "What XMLPrinter prints is loaded again", "statement": "For a document that can be written (names and contents that do not contain their own end marks, no NUL, no carriage return, no text of white space only, no two texts next to each other, declarations first), XMLDocument::SaveFile has no undefined behaviour, and the saved text is loaded as this document, except that without compact mode every text directly before an element has got four more spaces for every element around it: compact output is loaded unchanged, indented output if and only if no text is directly before an element. A file that cannot be opened is reported and nothing is written.", "quantifier": "all documents, with and without compact mode and byte order mark", "why_tests_cant": "unbounded documents; the bug shows only for mixed content", "anchors": ["scr/tinyxml2/tinyxml2.cpp::XMLPrinter::OpenElement", "scr/tinyxml2/tinyxml2.cpp::XMLPrinter::CloseElement", "scr/tinyxml2/tinyxml2.cpp::XMLPrinter::PrintString", "scr/tinyxml2/tinyxml2.cpp::XMLDocument::SaveFile"]}
{"id": "C82", "title": "A loaded document can be saved and loaded again", "statement": "Every document loaded from a file of at most INT_MAX bytes can be printed without undefined behaviour and loaded again as in C81.", "quantifier": "all files", "why_tests_cant": "unbounded inputs; needs an invariant of everything the reader can produce", "anchors": ["scr/tinyxml2/tinyxml2.cpp::XMLDocument::LoadFile", "scr/tinyxml2/tinyxml2.cpp::XMLDocument::SaveFile", "scr/tinyxml2/tinyxml2.cpp::XMLPrinter::PrintString"]}
{"id": "C83", "title": "InsertEndChild and InsertFirstChild", "statement": "A node that is not a document, inserted at the end or the front of the children of a node of the same document, is taken from where it was (a list of children or the unlinked nodes) and is then the last or first child; the order of all other children, all other lists, the parents, and the list of unlinked nodes stay right. A node of another document is refused with a null pointer and nothing changes. A cycle arises exactly if a node is inserted into itself or a node below it.", "quantifier": "all states of any number of documents, all pairs of nodes", "why_tests_cant": "unbounded trees; the links of up to five nodes change at once", "anchors": ["scr/tinyxml2/tinyxml2.cpp::XMLNode::InsertEndChild", "scr/tinyxml2/tinyxml2.cpp::XMLNode::InsertFirstChild", "scr/tinyxml2/tinyxml2.cpp::XMLNode::InsertChildPreamble", "scr/tinyxml2/tinyxml2.cpp::XMLNode::Unlink", "scr/tinyxml2/tinyxml2.cpp::XMLDocument::MarkInUse"]}
{"id": "C84", "title": "InsertAfterChild", "statement": "A node inserted behind a child x of a node is afterwards the next child behind x, taken from wherever it was, all else unchanged; behind itself it stays; behind something that is no child, or from another document, it is refused with a null pointer.", "quantifier": "all states, all triples of nodes", "why_tests_cant": "the failing case needs the last child inserted behind the one before it", "anchors": ["scr/tinyxml2/tinyxml2.cpp::XMLNode::InsertAfterChild"]}
{"id": "C85", "title": "Walking and searching children", "statement": "The loops over NextSibling and PreviousSibling pass all children of a node in order and in reverse order; FirstChildElement, LastChildElement, NextSiblingElement and PreviousSiblingElement return the first fitting node of the children, of the reversed children, of the children behind and of those before in reverse order, or null.", "quantifier": "all states, all nodes, all names", "why_tests_cant": "unbounded lists", "anchors": ["scr/tinyxml2/tinyxml2.cpp::XMLNode::FirstChildElement", "scr/tinyxml2/tinyxml2.cpp::XMLNode::LastChildElement", "scr/tinyxml2/tinyxml2.cpp::XMLNode::NextSiblingElement", "scr/tinyxml2/tinyxml2.cpp::XMLNode::PreviousSiblingElement"]}
{"id": "C86", "title": "Deleting nodes", "statement": "DeleteChild and XMLDocument::DeleteNode delete exactly the node and all nodes below it, DeleteChildren all nodes below, XMLDocument::Clear all nodes of the document, the destructor of the document these and the document; each node is freed once, no deleted node is touched again, and the remaining nodes are linked as before without the deleted ones.", "quantifier": "all states without a cycle, all nodes", "why_tests_cant": "recursion over unbounded trees; a double free or a node left behind need not show", "anchors": ["scr/tinyxml2/tinyxml2.cpp::XMLNode::DeleteChildren", "scr/tinyxml2/tinyxml2.cpp::XMLNode::DeleteChild", "scr/tinyxml2/tinyxml2.cpp::XMLNode::DeleteNode", "scr/tinyxml2/tinyxml2.cpp::XMLDocument::DeleteNode", "scr/tinyxml2/tinyxml2.cpp::XMLDocument::Clear"]}
{"id": "C87", "title": "Programs that edit documents", "statement": "For every sequence of calls that create documents and nodes, insert and delete them - with pointers to existing nodes, no document as a child, no node into itself or below, not the last child behind the one before it - there is no undefined behaviour, and after every call the links are those of the forest that the calls describe; when all documents are destroyed no node is left.", "quantifier": "all sequences of calls", "why_tests_cant": "unbounded histories", "anchors": ["scr/tinyxml2/tinyxml2.h::CreateUnlinkedNode", "scr/tinyxml2/tinyxml2.cpp::XMLDocument::MarkInUse", "scr/tinyxml2/tinyxml2.cpp::XMLNode::InsertEndChild", "scr/tinyxml2/tinyxml2.cpp::XMLDocument::Clear"]}
{"id": "C88", "title": "DynArray is a list", "statement": "Every sequence of calls of Push, PushArr, Pop, PopArr, operator[], PeekTop, SwapRemove, Clear, Size and Empty on a DynArray is answered as by the list it stands for, whether the entries are in the array inside the object or on the heap; growing copies all entries and frees the old array; the capacity becomes twice what is needed; without memory the call throws std::bad_alloc and the list stays; enlarging to more than half of INT_MAX is undefined (signed overflow), which for 10 initial entries happens exactly at entry 1610612735; the destructor leaves no array behind.", "quantifier": "all INITIAL_SIZE, all sequences of calls with valid indices, all entries, all patterns of failing requests for memory", "why_tests_cant": "the limit needs gigabytes; the order copy / delete / assign only shows as memory errors", "anchors": ["scr/tinyxml2/tinyxml2.h::DynArray::Push", "scr/tinyxml2/tinyxml2.h::DynArray::PushArr", "scr/tinyxml2/tinyxml2.h::DynArray::Pop", "scr/tinyxml2/tinyxml2.h::DynArray::SwapRemove", "scr/tinyxml2/tinyxml2.h::DynArray::EnsureCapacity"]}
{"id": "C89", "title": "MemPoolT hands out items not in use", "statement": "In every sequence of calls, Alloc returns an item that is not in use, in a block that is alive, and nothing the pool does changes what the owners wrote into items in use; CurrentAllocs is the number of items in use, Untracked the number handed out minus the calls of SetTracked; Clear and the destructor free every block exactly once and leave nothing behind.", "quantifier": "all numbers of items per block, all sequences of calls", "why_tests_cant": "unbounded sequences; aliasing of two live objects need not show", "anchors": ["scr/tinyxml2/tinyxml2.h::MemPoolT::Alloc", "scr/tinyxml2/tinyxml2.h::MemPoolT::Free", "scr/tinyxml2/tinyxml2.h::MemPoolT::Clear", "scr/tinyxml2/tinyxml2.h::MemPoolT::SetTracked"]}
{"id": "C90", "title": "Refused and repeated attempts to load a file", "statement": "After a write_plt that returned, any sequence of realloc of an array and of attempts, made through exec_except, to read a variable into a component of it: an attempt ends with the message for a wrong component, else for an array with too few interior points, else for an unknown variable, else for a missing file, else it stores the converted interior of the source and nothing else; a refused attempt changes no element and gives its buffer back; after realloc every element is indeterminate; out gets exactly the lines of the attempts; other arrays never change. Test_D1_tecfile from its first line to its last writes the four messages and two successes, and leaves y2 in the interior of component 2 and nothing elsewhere; compiled without _CHECK_POINTDATA_RANGE its line 57 is undefined.", "quantifier": "all reachable states, dimensions 1-3, sizes, locations, variables, all sequences of attempts; memory is granted; for the test all numbers of points (two or more in the interior)", "why_tests_cant": "the test is one sequence with one size; it does not look at the elements afterwards", "anchors": ["test/Test_D1_tecfile/Test_D1_tecfile.cpp", "scr/liton_point_data/PointData_1D.hpp::read_plt", "scr/liton_point_data/PointData_2D.hpp::read_plt", "scr/liton_point_data/PointData_3D.hpp::read_plt", "scr/liton_point_data/PointData_1D.hpp::realloc", "scr/liton_cpp_snippets/lion_snippets.hpp::exec_except"]}
{"id": "C91", "title": "Numbers in documents", "statement": "A number that tinyxml2 converts to a text and back is the same number: every int, unsigned, int64_t and bool, every finite double bit by bit (17 digits and a correctly rounded reading), the infinities; a NaN comes back as a NaN. So it is with SetAttribute and Query...Attribute, SetText and Query...Text, which leave all other attributes alone, and with an attribute or text anywhere in a document that is printed and loaded again. A query of something that is missing or that cannot be converted says which of the two it is and leaves the variable as it is; 0 is read as false and any other number as true.", "quantifier": "all values of the types, all elements and attribute names, all documents that can be written, compact or not; white space behind the text", "why_tests_cant": "2^64 doubles, 2^64 int64_t; the doubles at the limits of the exponent and those directly above a power of two decide whether 17 digits are enough", "anchors": ["scr/tinyxml2/tinyxml2.cpp::XMLUtil::ToStr", "scr/tinyxml2/tinyxml2.cpp::XMLUtil::ToInt", "scr/tinyxml2/tinyxml2.cpp::XMLUtil::ToUnsigned", "scr/tinyxml2/tinyxml2.cpp::XMLUtil::ToInt64", "scr/tinyxml2/tinyxml2.cpp::XMLUtil::ToBool", "scr/tinyxml2/tinyxml2.cpp::XMLUtil::ToDouble", "scr/tinyxml2/tinyxml2.cpp::XMLElement::SetText", "scr/tinyxml2/tinyxml2.cpp::XMLElement::FindOrCreateAttribute", "scr/tinyxml2/tinyxml2.cpp::XMLElement::FindAttribute", "scr/tinyxml2/tinyxml2.cpp::XMLElement::QueryDoubleText", "scr/tinyxml2/tinyxml2.cpp::XMLAttribute::QueryDoubleValue"]}
{"id": "C92", "title": "Attributes of XML elements", "statement": "Whatever attribute calls a program makes on elements (SetAttribute with a text or with the text of an attribute, DeleteAttribute, creation and deletion of elements, parsing of attributes), each element has the attributes in the order of their first setting, no name twice, each with its latest value; FindAttribute and Attribute find the attribute of a name and null otherwise; other elements are not touched; no freed attribute is followed; after deletion of an element none of its attributes is left in the pool. Setting an attribute to a text that the same attribute owns is the exception: the text is freed before it is read.", "quantifier": "all sequences of calls, all elements, names and values; all places of new attributes; all attribute lists of a parsed tag, those with repeated names included", "why_tests_cant": "Chains of attributes with deletion at the beginning, middle and end and reuse of freed places; texts that are freed before they are read usually still hold the old bytes, so a test sees nothing", "anchors": ["scr/tinyxml2/tinyxml2.cpp::XMLElement::FindAttribute", "scr/tinyxml2/tinyxml2.cpp::XMLElement::FindOrCreateAttribute", "scr/tinyxml2/tinyxml2.cpp::XMLElement::DeleteAttribute", "scr/tinyxml2/tinyxml2.cpp::XMLElement::ParseAttributes", "scr/tinyxml2/tinyxml2.cpp::XMLElement::CreateAttribute", "scr/tinyxml2/tinyxml2.cpp::StrPair::SetStr"]}
{"id": "C93", "title": "Copying and comparing XML nodes and documents", "statement": "DeepClone of a node gives a new node with the same tree below it (kinds, names, texts, attributes with their order, order of children) in the target document or in its own; the copy is in no list, shares no node with the original, and nothing else changes. DeepCopy replaces the contents of the target document with such a copy and does nothing if the target is the document itself. ShallowEqual holds exactly for nodes of the same kind with the same name or text and the same list of attribute values.", "quantifier": "all forests that calls can build, all nodes, all target documents (the own one, null, another one), all places of new nodes", "why_tests_cant": "Trees of any depth and width; the target may hold nodes outside its tree; a copy that shared a node would be noticed only when one of the two is deleted", "anchors": ["scr/tinyxml2/tinyxml2.cpp::XMLNode::DeepClone", "scr/tinyxml2/tinyxml2.cpp::XMLDocument::DeepCopy", "scr/tinyxml2/tinyxml2.cpp::XMLElement::ShallowClone", "scr/tinyxml2/tinyxml2.cpp::XMLElement::ShallowEqual", "scr/tinyxml2/tinyxml2.cpp::XMLText::ShallowClone", "scr/tinyxml2/tinyxml2.cpp::XMLText::ShallowEqual"]}
{"id": "C94", "title": "Whole programs behave as on the abstract machine", "statement": "A program made of member calls on any number of 1D, 2D and 3D arrays, questions to size(), the PD_For/PD_Reduce templates (over all or over named dimensions, with or without components), its own loops and branches, and try blocks nested in any way ends normally, ends with an exception, or uses a never assigned number exactly as it does on a machine whose arrays are plain functions from points to values, with the same variables and output; undefined behaviour other than the use of a never assigned number occurs only if the contract is left, and in a checked build with enough memory only listed faults of the program leave it (no element access with any index, no alloc, realloc, clear or question with any argument does).", "quantifier": "all programs, all initial variables, all element types, checked and unchecked builds, all reachable states, all behaviours of the memory allocator (faults: allocator that grants)", "why_tests_cant": "Programs, nesting of loops and handlers, and histories of arrays are unbounded; a test runs one program", "anchors": ["scr/liton_point_data/PointData.hpp::PD_For_N", "scr/liton_point_data/PointData.hpp::PD_Reduce_N", "scr/liton_point_data/PointData_1D.hpp::PD_For_1D", "scr/liton_point_data/PointData_2D.hpp::PD_For_N_2D", "scr/liton_point_data/PointData_2D.hpp::PD_For_1D", "scr/liton_point_data/PointData_3D.hpp::PD_For_2D", "scr/liton_point_data/PointData_3D.hpp::PD_Reduce_N_3D", "scr/liton_point_data/PointData_3D.hpp::disp_data", "scr/liton_point_data/PointData_2D.hpp::mirror", "scr/liton_point_data/PointData_1D.hpp::periodic", "scr/liton_point_data/PointData_1D.hpp::range"]}
{"id": "C95", "title": "What the test programs of the point arrays do", "statement": "Run with checks, Test_D1_PointData_C and Test_D1_PointData_H use an element that was never assigned (the constant array xc), which is undefined; without the lines of xc they end normally with exactly the stated output and the stated exceptions, whether a large request for memory is granted or not. Test_D2_PointData_C behaves in the same way without its line 41; with it, alloc builds row pointers outside its storage if the wrapped request is granted. Run without checks all three are undefined.", "quantifier": "the three programs, all contents of uninitialised memory (checked runs), memory granted or refused", "why_tests_cant": "The programs are the tests: an undefined read prints some number and passes, the wrapped request is refused on most machines", "anchors": ["test/Test_D1_PointData_C/Test_D1_PointData_C.cpp::main", "test/Test_D1_PointData_H/Test_D1_PointData_H.cpp::main", "test/Test_D2_PointData_C/Test_D2_PointData_C.cpp::main"]}
{"id": "C96", "title": "A program with and without checks", "statement": "If a program compiled without _CHECK_POINTDATA_RANGE keeps the contract, then compiled with it it ends in the same way with the same variables. If with checks it ends and no check fails on the way (whether its exception would be caught or not), then without checks it ends in the same way with the same variables. A program that does not throw such exceptions itself and uses no unassigned number keeps the contract without checks exactly if with checks it ends and no check fails.", "quantifier": "all programs of calls, questions, loops, reductions, branches and try blocks, all states of the arrays and variables", "why_tests_cant": "The tests run one build; programs that catch the exception of a check are infinitely many", "anchors": ["scr/liton_point_data/PointData_1D.hpp::check_range", "scr/liton_point_data/PointData_1D.hpp::check_data", "scr/liton_point_data/PointData_2D.hpp::check_range", "scr/liton_point_data/PointData_3D.hpp::check_range"]}
{"id": "C97", "title": "Time stamps", "statement": "get_time() with the default format returns, for every local time of the years 1000 to 9999, exactly the fifteen characters YYYYMMDDTHHMMSS of that time; different times give different stamps, and stamps compared as strings are ordered as the times. With another format the expanded text is returned if it has at most 99 characters; for a longer text, or a format with an invalid conversion, the call is undefined because the result of strftime is not looked at.", "quantifier": "all local times, all formats", "why_tests_cant": "tests see the time at which they run", "anchors": ["scr/liton_cpp_snippets/lion_snippets.hpp::time::get_time"]}
{"id": "C98", "title": "References to characters", "statement": "In texts and values of attributes, &#n; and &#xn; are read as the UTF-8 bytes of the character with this number; what looks like a reference but has no numeral stays as it is; a reference to something that is no character is rejected.", "quantifier": "all characters, all ways to write their number (leading zeros, upper and lower case)", "why_tests_cant": "more than a million characters in several notations each", "anchors": ["scr/tinyxml2/tinyxml2.cpp::XMLUtil::GetCharacterRef", "scr/tinyxml2/tinyxml2.cpp::XMLUtil::ConvertUTF32ToUTF8", "scr/tinyxml2/tinyxml2.cpp::StrPair::GetStr"]}
{"id": "C99", "title": "Reading XML inside the buffer", "statement": "Whatever bytes a file contains, reading it as XML never reads or writes outside the character buffer and ends; it ends with the same error or the same tree as a reader that works on lists of bytes; the names and values, which are decoded at their places inside the buffer when they are asked for, are the right ones whatever the order in which they are asked for, because their places have no byte in common.", "quantifier": "all byte strings; all sequences of queries of names and values", "why_tests_cant": "decoding writes into the buffer that is still being read; an overlap shows only for particular byte sequences and particular orders of queries", "anchors": ["scr/tinyxml2/tinyxml2.cpp::StrPair::GetStr", "scr/tinyxml2/tinyxml2.cpp::StrPair::ParseText", "scr/tinyxml2/tinyxml2.cpp::StrPair::ParseName", "scr/tinyxml2/tinyxml2.cpp::XMLUtil::GetCharacterRef", "scr/tinyxml2/tinyxml2.cpp::XMLNode::ParseDeep", "scr/tinyxml2/tinyxml2.cpp::XMLElement::ParseAttributes", "scr/tinyxml2/tinyxml2.cpp::XMLAttribute::ParseDeep", "scr/tinyxml2/tinyxml2.cpp::XMLDocument::Identify", "scr/tinyxml2/tinyxml2.cpp::XMLDocument::Parse"]}
{"id": "C100", "title": "Line numbers of nodes, attributes and errors", "statement": "After a file has been read as XML, the line number of every node and every attribute is one more than the number of line feeds before the place in the file where that node or attribute stands (for a text: before its first visible character), the places following each other in the order of the tree; if reading fails, the line number of the error is that of the thing the error names (the element that is not closed, the attribute given twice, the comment without end ...), and 0 for an empty file.", "quantifier": "all byte strings", "why_tests_cant": "the counter is advanced in four different loops, is set back when a text starts, and each node takes it at another moment; a missed or doubled line feed shows only for line feeds at particular places", "anchors": ["scr/tinyxml2/tinyxml2.h::XMLUtil::SkipWhiteSpace", "scr/tinyxml2/tinyxml2.cpp::StrPair::ParseText", "scr/tinyxml2/tinyxml2.cpp::XMLDocument::Identify", "scr/tinyxml2/tinyxml2.cpp::XMLNode::ParseDeep", "scr/tinyxml2/tinyxml2.cpp::XMLElement::ParseAttributes", "scr/tinyxml2/tinyxml2.cpp::XMLAttribute::ParseDeep", "scr/tinyxml2/tinyxml2.cpp::XMLDocument::SetError", "scr/tinyxml2/tinyxml2.cpp::XMLDocument::Parse"]}
{"id": "C101", "title": "Printing XML without a document", "statement": "A program may call OpenElement, PushAttribute, PushText, PushComment, PushDeclaration, PushUnknown and CloseElement of an XML printer itself. If every element it opens is closed, nothing else is closed, attributes are given directly after the opening of their element, and all calls use the compact mode of the printer, then the calls describe exactly one list of nodes, and the printer writes the text it writes for these nodes; loaded again, the text gives these nodes (with the white space that indentation adds behind texts). PushHeader with a declaration is PushHeader without, followed by that declaration.", "quantifier": "all sequences of calls, names, values and texts, both modes", "why_tests_cant": "the printer keeps five pieces of state between the calls; whether a sequence of calls describes a tree is about sequences of any length and nesting", "anchors": ["scr/tinyxml2/tinyxml2.cpp::XMLPrinter::OpenElement", "scr/tinyxml2/tinyxml2.cpp::XMLPrinter::PushAttribute", "scr/tinyxml2/tinyxml2.cpp::XMLPrinter::PushText", "scr/tinyxml2/tinyxml2.cpp::XMLPrinter::CloseElement", "scr/tinyxml2/tinyxml2.cpp::XMLPrinter::PushHeader", "scr/tinyxml2/tinyxml2.cpp::XMLPrinter::SealElementIfJustOpened", "scr/tinyxml2/tinyxml2.cpp::XMLPrinter::PushComment", "scr/tinyxml2/tinyxml2.cpp::XMLPrinter::PushDeclaration", "scr/tinyxml2/tinyxml2.cpp::XMLPrinter::PushUnknown"]}
{"id": "C102", "title": "Printing XML to memory", "statement": "An XML printer without a file holds, after any calls that give a text of fewer than 2^30-1 bytes, exactly this text and one null behind it in its buffer: CStrSize is the number of bytes plus one and CStr shows the bytes, whatever reallocations took place; so a document printed to memory is the text that would be saved. It throws only if there is no memory. After ClearBuffer with no element open the printer is as new.", "quantifier": "all sequences of calls, all texts of fewer than 2^30-1 bytes, all outcomes of the allocations", "why_tests_cant": "the null at the end is overwritten by each write and set again, the buffer moves from the printer to the heap and doubles; an offset that is wrong by one shows only for some lengths", "anchors": ["scr/tinyxml2/tinyxml2.cpp::XMLPrinter::Write", "scr/tinyxml2/tinyxml2.cpp::XMLPrinter::Putc", "scr/tinyxml2/tinyxml2.cpp::XMLPrinter::PrintString", "scr/tinyxml2/tinyxml2.cpp::XMLPrinter::PrintSpace", "scr/tinyxml2/tinyxml2.h::DynArray::PushArr"]}
{"id": "C103", "title": "Collapsing white space", "statement": "A document constructed with COLLAPSE_WHITESPACE reads a file as one that is not, and the names, values and texts that it shows, asked for in any order and any number of times, are those of the other one, except that every text that is not a CDATA section is replaced by its words with one space between them. This happens at the place where the text stands in the character buffer, and nothing is read or written outside of the buffer. Collapsing keeps the words of a text, leaves no white space other than single spaces between words, and changes nothing the second time.", "quantifier": "all contents of files that load, all sequences of questions", "why_tests_cant": "the function moves the text over itself with two pointers; that the writing pointer never overtakes the reading one and that every run of white space is handled is about all texts", "anchors": ["scr/tinyxml2/tinyxml2.cpp::StrPair::CollapseWhitespace", "scr/tinyxml2/tinyxml2.cpp::StrPair::GetStr", "scr/tinyxml2/tinyxml2.cpp::XMLText::ParseDeep"]}
{"id": "C104", "title": "Filling arrays with loops of assignments", "statement": "A loop over all points of an array of any dimension whose body is a list of assignments to elements of this array, each at the loop indices or at the last index of some dimensions and with flags that fit its locations, runs through. Afterwards every element that some assignment reaches has the number of the assignment that reached it last, in the order of the loop and then of the body, computed with the indices it had then, and all other elements, and all other arrays, are as before. If every combination of flags is used, with the last index at most where the flag is FL::P, and no dimension is empty, no element is without a number; if no assignment has FL::P everywhere, the far corner of an array at half points keeps what it had. In particular the two loops of Test_D3_PointData_H give the elements of x7 the numbers its author means, whatever the sizes.", "quantifier": "all reachable states, arrays of all kinds and sizes, all lists of such assignments", "why_tests_cant": "the tests fill arrays of one size and print them; which of several assignments to a far face, edge or corner is the last one depends on the order of the loop, and an element no assignment reaches prints whatever is in the storage", "anchors": ["test/Test_D3_PointData_H/Test_D3_PointData_H.cpp::main", "scr/liton_point_data/PointData_3D.hpp::PD_For_N_3D", "scr/liton_point_data/PointData_3D.hpp::last", "scr/liton_point_data/PointData_2D.hpp::last", "scr/liton_point_data/PointData_1D.hpp::last"]}
{"id": "C105", "title": "The test program of the 2D arrays at half points", "statement": "Test_D2_PointData_H, run as a whole in a checked build: without the allocation of line 39 and the constant array it ends normally and writes exactly the given text and exceptions, whatever uninitialised memory contains, except that the far corner of both components of x3 is printed without ever having been assigned. With the constant array it reads an element that was never assigned; with line 39 the row pointers leave the storage if the memory is granted. Without checks the accesses outside of the range leave the storage.", "quantifier": "all contents of uninitialised memory; memory that grants or refuses the large allocation", "why_tests_cant": "the test prints what happens to be in memory, so a run cannot show that the output is not determined; the large allocation is granted or refused by the machine at hand", "anchors": ["test/Test_D2_PointData_H/Test_D2_PointData_H.cpp::main"]}
{"id": "C106", "title": "Handles of tinyxml2 are safe", "statement": "In every state of the nodes of documents that shows lists of children, any chain of steps of an XMLHandle or XMLConstHandle, starting from the null pointer or from a node, is defined, changes nothing, and ends at the one place where the chain leads in these lists, or at the null pointer. The same chain written with -> is undefined, through the null pointer, exactly if some step before the last one leads to nothing, and otherwise ends at the same place.", "quantifier": "all states of the nodes, all chains of FirstChild, LastChild, NextSibling, PreviousSibling, the four searches for elements and the casts, all names and kinds", "why_tests_cant": "chains of any length over any tree, with nodes missing anywhere", "anchors": ["scr/tinyxml2/tinyxml2.h::XMLHandle", "scr/tinyxml2/tinyxml2.h::XMLConstHandle", "scr/tinyxml2/tinyxml2.cpp::XMLNode::FirstChildElement", "scr/tinyxml2/tinyxml2.cpp::XMLNode::PreviousSiblingElement"]}
{"id": "C107", "title": "Where an access without checks ends", "statement": "In a build without range checking x(n,idx,flags) on an allocated array, for any component, indices and flags: the indices are followed from row to row through the storage, each index counted from the row the earlier ones lead to. If they stay inside, the access reads and writes exactly the element whose place they lead to, which is the one a valid access names in either build; moving an index by the whole width of its dimension is the same as moving the index before it, or the component, by one. Otherwise, and on an array without elements in any case, the access is undefined behaviour.", "quantifier": "every reachable state, every array, every unsigned n, every int index, every flag combination", "why_tests_cant": "a run without checks shows a number in all cases; which element it belongs to, and whether the access is defined at all, cannot be seen", "anchors": ["scr/liton_point_data/PointData_1D.hpp::PointData::operator()", "scr/liton_point_data/PointData_1D.hpp::PointData::alloc", "scr/liton_point_data/PointData_2D.hpp::PointData::operator()", "scr/liton_point_data/PointData_2D.hpp::PointData::alloc", "scr/liton_point_data/PointData_3D.hpp::PointData::operator()", "scr/liton_point_data/PointData_3D.hpp::PointData::alloc"]}
{"id": "C108", "title": "copy_from with zones anywhere", "statement": "x.copy_from(y,R,r,I,i) for zones that need not lie inside the arrays, with arguments of at most 2^28 in size. With checks it throws, changing nothing, exactly if in some dimension one zone begins where the other ends or behind it, or if it is a copy inside one array and the written zone and its source overlap in every dimension; no test compares the zones with the arrays. Otherwise, and without checks, a gap between the zones in the first dimension in which they do not meet is undefined behaviour, zones that touch in it change nothing, and zones that meet everywhere are copied element by element in the order of the loops, by places in the storage: undefined as soon as one place does not exist, otherwise with exactly the resulting numbers in x and all other arrays as before.", "quantifier": "every reachable state, every two arrays of one type or one array, all ranges and anchors of at most 2^28 in size, both builds", "why_tests_cant": "zones over the end of a row silently address the next row and a run looks normal; all zones, shapes and translations", "anchors": ["scr/liton_point_data/PointData_1D.hpp::PointData::copy_from", "scr/liton_point_data/PointData_2D.hpp::PointData::copy_from", "scr/liton_point_data/PointData_3D.hpp::PointData::copy_from"]}
{"id": "C109", "title": "Visitors of XML nodes", "statement": "Accept of any node, with any visitor whose callbacks leave the documents alone, ends, is defined and changes no node. The calls are: VisitEnter, the children in order, VisitExit for documents and elements, Visit for the others; after false from VisitEnter the children are skipped, after false from a visit of a child its further siblings; every VisitEnter has its VisitExit, pair inside pair, no call is made twice, and Accept answers what its last call is answered. A visitor that always answers true sees every node below, under documents and elements only. The comment of the class, that false from any callback also skips the siblings, is not so for VisitEnter.", "quantifier": "every state of the documents that calls of the public functions lead to, every node, every visitor (answers that depend on all calls before), every history of calls", "why_tests_cant": "trees of any size and depth and all sequences of answers", "anchors": ["scr/tinyxml2/tinyxml2.cpp::XMLDocument::Accept", "scr/tinyxml2/tinyxml2.cpp::XMLElement::Accept", "scr/tinyxml2/tinyxml2.cpp::XMLText::Accept", "scr/tinyxml2/tinyxml2.cpp::XMLComment::Accept", "scr/tinyxml2/tinyxml2.cpp::XMLDeclaration::Accept", "scr/tinyxml2/tinyxml2.cpp::XMLUnknown::Accept"]}
{"id": "C110", "title": "XML documents that leave entities as they are", "statement": "A document constructed with processEntities = false reads every file with the same outcome as the default document: the same error or the same tree, with attribute values and texts exactly as they stand in the file but for unified newlines, while the default document replaces entities and character references in the same raw values; without an & in the file both read the same. Saving such a document should write the values as they are, so that reading the saved text gives the document back; in fact every attribute value and every text outside of CDATA sections is written as an empty string.", "quantifier": "every file content, every tree, compact or indented, with or without byte order mark", "why_tests_cant": "the tests and tools of the repository never construct such a document; all contents of files", "anchors": ["scr/tinyxml2/tinyxml2.cpp::XMLPrinter::PrintString", "scr/tinyxml2/tinyxml2.cpp::XMLText::ParseDeep", "scr/tinyxml2/tinyxml2.cpp::XMLAttribute::ParseDeep", "scr/tinyxml2/tinyxml2.cpp::XMLDocument::LoadFile"]}
{"id": "C111", "title": "The text of an XML error", "statement": "Setting an error with anything the caller has to say writes its text without leaving the array of 1000 characters and without reading characters that were never written; the text begins with the name, the number and the line of the error and goes on with what the caller said, cut at 999 bytes, of which at least 915 are the caller's; equal texts mean the same error in the same line with the same saying. Every error number has a name of its own, other numbers read outside of the table. An error about which the caller says nothing has an empty text.", "quantifier": "every error number, every int as line number, every text of the caller of any length", "why_tests_cant": "no test of the repository looks at error texts; all line numbers and all lengths of names", "anchors": ["scr/tinyxml2/tinyxml2.cpp::XMLDocument::SetError", "scr/tinyxml2/tinyxml2.cpp::XMLDocument::ErrorIDToName", "scr/tinyxml2/tinyxml2.cpp::XMLDocument::ErrorStr", "scr/tinyxml2/tinyxml2.cpp::XMLDocument::ErrorName"]}
{"id": "C112", "title": "Tables of numbers printed without a document", "statement": "A program that prints, by calls of an XMLPrinter, a root element with any number of elements, each with any numbers (int, unsigned, int64_t, bool, double but NaN) as attributes and as its text, gets a text from which the same elements are loaded, and every number is queried as it was pushed. Numbers of type float are not kept: different ones are printed alike.", "quantifier": "every list of rows, all names, all numbers, compact or indented, with or without byte order mark", "why_tests_cant": "all numbers of all types in tables of all sizes", "anchors": ["scr/tinyxml2/tinyxml2.cpp::XMLPrinter::PushAttribute", "scr/tinyxml2/tinyxml2.cpp::XMLPrinter::PushText"]}
{"id": "C113", "title": "What a document says about the error of reading a file", "statement": "After reading a file with fewer than 2^31-1 line feeds a document has no error if the file is read; if it is refused, the document has the number and the name of that error and the line of what is blamed. If the file cannot be opened, an element is not closed by its own end tag, an attribute is wrong, the text ends in a tag, or a declaration is not at the top, the text of the error tells name, number and line and names the file, the element that is blamed or to which the attribute belongs, or the value of the declaration; for all other errors it is empty. After saving there is no error if the file could be opened, and otherwise one that names the file.", "quantifier": "every content of the file, every file name, names of elements of any length (of which 915 bytes are told)", "why_tests_cant": "no test of the repository looks at error texts; all contents that are refused", "anchors": ["scr/tinyxml2/tinyxml2.cpp::XMLDocument::LoadFile", "scr/tinyxml2/tinyxml2.cpp::XMLDocument::SaveFile", "scr/tinyxml2/tinyxml2.cpp::XMLDocument::SetError", "scr/tinyxml2/tinyxml2.cpp::XMLElement::ParseAttributes", "scr/tinyxml2/tinyxml2.cpp::XMLNode::ParseDeep"]}
{"id": "C114", "title": "XML files are read and written within the stack", "statement": "On a stack with room for d calls of the reader in each other every file whose elements stand at most d deep in each other is read as with an endless stack, and so is every file of at most 3(d+1) bytes, correct or not; a document is written as with an endless stack if and only if its nodes stand at most d deep in each other. (Reading is false in general: there is no limit of the depth, so on every stack a file of 3(d+1)+1 bytes, whatever follows it, and every correct file with elements with children more than d deep in each other exhausts the stack.)", "quantifier": "every content of a file, every size d of the stack", "why_tests_cant": "all contents and all depths; a test cannot run on every stack", "anchors": ["scr/tinyxml2/tinyxml2.cpp::XMLNode::ParseDeep", "scr/tinyxml2/tinyxml2.cpp::XMLElement::ParseDeep", "scr/tinyxml2/tinyxml2.cpp::XMLDocument::Parse"]}
{"id": "C115", "title": "Output of the test programs of sizes, ranges and D0 arrays", "statement": "In a checked build Test_D1_SizeT, Test_D2_SizeT, Test_D3_SizeT, Test_D1_RangeT, Test_D2_RangeT and Test_D3_RangeT end normally, and the texts they write to their two files are the ones of the tables of the specification, with the marks of time and random number in front of the lines of exec_except; the two programs of one dimension also end normally in an unchecked build, with the texts of two other tables. The same holds of Test_D0_PointData_C in a checked build without the lines of its constant array. (Not of the rest: the unchecked builds for two and three dimensions and of Test_D0_PointData_C read outside of an array, and Test_D0_PointData_C prints an element that was never assigned.)", "quantifier": "every answer of the clock and of rand() at every call, every contents of the files before, every name of the types float and double", "why_tests_cant": "the programs only print; nothing in the repository says what their output should be, and undefined behaviour cannot be observed", "anchors": ["test/Test_D1_SizeT/Test_D1_SizeT.cpp::main", "test/Test_D2_SizeT/Test_D2_SizeT.cpp::main", "test/Test_D3_SizeT/Test_D3_SizeT.cpp::main", "test/Test_D1_RangeT/Test_D1_RangeT.cpp::main", "test/Test_D2_RangeT/Test_D2_RangeT.cpp::main", "test/Test_D3_RangeT/Test_D3_RangeT.cpp::main", "test/Test_D0_PointData_C/Test_D0_PointData_C.cpp::main"]}
{"id": "C116", "title": "Output of the three-dimensional array tests", "statement": "In a checked build with enough memory Test_D3_PointData_C and Test_D3_PointData_H, without the lines of their constant arrays, end normally; what they print of the values, reads, reductions and copies, and the exceptions they catch, are the ones of the formulas and tables of the specification, whatever the text of a number is and whatever is found in the memory of new objects. (Not of the rest: both programs print an element of a constant array that was never assigned, which is undefined, and without range checking Test_D3_PointData_C reads through a null pointer.)", "quantifier": "every way to write a number as text, every contents of uninitialised memory", "why_tests_cant": "the programs only print; nothing in the repository says what their output should be, and undefined behaviour cannot be observed", "anchors": ["test/Test_D3_PointData_C/Test_D3_PointData_C.cpp::main", "test/Test_D3_PointData_H/Test_D3_PointData_H.cpp::main"]}
{"id": "C117", "title": "Stack needed for deleting and copying XML nodes", "statement": "On a stack with room for r calls in each other, a node (by DeleteNode), all nodes of a document (by Clear or by its destructor) are deleted, and a node (by DeepClone) or a document (by DeepCopy) is copied, with exactly the result they have on an endless stack, if and only if no node concerned has a chain of r descendants, each a child of the one before, below it; for a document this concerns the nodes that are not in its tree too. Otherwise the stack is exhausted. As nothing limits the depth, for every stack there is a document that can be built and that exhausts it when it is destroyed.", "quantifier": "all states that programs can reach by the calls of C83, all nodes and documents, all sizes r of the stack", "why_tests_cant": "all trees and all depths; a test cannot run on every stack, and the destructor of a deep document ends the process", "anchors": ["scr/tinyxml2/tinyxml2.cpp::XMLNode::DeleteNode", "scr/tinyxml2/tinyxml2.cpp::XMLNode::DeleteChildren", "scr/tinyxml2/tinyxml2.cpp::XMLNode::DeepClone", "scr/tinyxml2/tinyxml2.cpp::XMLDocument::Clear", "scr/tinyxml2/tinyxml2.cpp::XMLDocument::DeepCopy"]}
{"id": "C118", "title": "Reading of float from texts and attributes", "statement": "ToFloat, and with it QueryFloatAttribute, FloatAttribute, QueryFloatText and FloatText, read a decimal number as the float nearest to it, of two nearest ones the one with the even pattern, with the sign of the text, and as infinite exactly from the number halfway between the largest float and 2^128 on. A finite float set as an attribute or text, in memory or in a document that is printed and loaded again, is read as a finite float with the same sign and a relative error of at most 1e-7; it is the same bit by bit if it has at most eight decimal digits, or if its first decimal digits are above 16777216 (of 99999999). Infinities come back, a NaN as a NaN. It is not the same number in general.", "quantifier": "all decimal texts with white space behind them, all 2^32 patterns of float, all elements, attributes and printable documents, all places in them", "why_tests_cant": "infinitely many texts; 2^32 patterns in every document; where the text of eight digits loses the last bit is a matter of the position in the decade, so samples may show only exact ones", "anchors": ["scr/tinyxml2/tinyxml2.cpp::XMLUtil::ToFloat", "scr/tinyxml2/tinyxml2.cpp::XMLAttribute::QueryFloatValue", "scr/tinyxml2/tinyxml2.cpp::XMLElement::QueryFloatText", "scr/tinyxml2/tinyxml2.cpp::XMLElement::FloatAttribute", "scr/tinyxml2/tinyxml2.cpp::XMLElement::FloatText"]}
{"id": "C119", "title": "What the texts of numbers are read as", "statement": "ToInt, ToUnsigned, ToInt64 and ToBool read every text that begins, behind white space, with an integer with or without a sign, whatever follows it, as that integer (for unsigned modulo 2^32, for bool as different from 0), answer false for every other text but the two words of bool, and are undefined for integers that do not fit. ToDouble reads a decimal number as the double nearest to it, of two nearest ones the one with the even pattern, with the sign of the text, and as infinite exactly from the number halfway between the largest double and 2^1024 on.", "quantifier": "all texts (integers and bool); all decimal texts with white space behind them (double)", "why_tests_cant": "infinitely many texts; ties need texts of up to 770 digits", "anchors": ["scr/tinyxml2/tinyxml2.cpp::XMLUtil::ToInt", "scr/tinyxml2/tinyxml2.cpp::XMLUtil::ToUnsigned", "scr/tinyxml2/tinyxml2.cpp::XMLUtil::ToInt64", "scr/tinyxml2/tinyxml2.cpp::XMLUtil::ToBool", "scr/tinyxml2/tinyxml2.cpp::XMLUtil::ToDouble"]}
{"id": "C120", "title": "Documents read from memory", "statement": "Parse(p, len) of memory with at least len bytes reads the document, or gives the error, that LoadFile gives for a file with these bytes; without a length it reads the text up to the first null byte, and what stands behind a null byte never matters. A null pointer, the length 0 and an empty text are an empty document. Memory outside of the array is touched exactly if the length is larger than the array or there is neither a length nor a null byte. The text of a printer is read as the document that was printed.", "quantifier": "all contents and sizes of the memory, all lengths of size_t, all printable documents, compact or not", "why_tests_cant": "all contents, all lengths; no test of the repository reads from memory", "anchors": ["scr/tinyxml2/tinyxml2.cpp::XMLDocument::Parse", "scr/tinyxml2/tinyxml2.cpp::XMLPrinter::XMLPrinter"]}
