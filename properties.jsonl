{"id": "C01", "title": "Cross product, dot product and determinant obey the vector laws", "statement": "For all vectors a, b, c (exact arithmetic): a^b = -(b^a), a^a = 0, (a^b)*a = (a^b)*b = 0, ^ is bilinear, determinant(a,b,c) = (a^b)*c, is alternating, and (point + (q - point)) = q, so that orientation tests built on them are consistent.", "quantifier": "all triples of vectors / points with exact (rational or real) coordinates", "why_tests_cant": "infinitely many coordinates; tests sample a few", "anchors": ["src/lib/shadow/vector.cpp: operator ^=, operator *, determinant", "src/lib/shadow/point.cpp: operator +, operator -"]}
{"id": "C02", "title": "normal_to returns a unit normal of the triangle", "statement": "For every three non collinear points, normal_to(a,b,c) has L2 norm 1, is orthogonal to b-a and c-b, and is the opposite of normal_to(c,b,a); for collinear points the division is by a zero norm.", "quantifier": "all triples of points with real coordinates", "why_tests_cant": "infinitely many triples", "anchors": ["src/lib/shadow/point.cpp: normal_to", "src/lib/shadow/vector.cpp: norm_L2"]}
{"id": "C03", "title": "Bounding-box union is a semilattice join with the empty box as identity", "statement": "For boxes without NaN, b1 + b2 is commutative, associative and idempotent, Bbox() is neutral, and b1 + b2 is the least box containing both. With NaN, a NaN of the right operand is ignored and a NaN of the left one sticks.", "quantifier": "all boxes over the extended doubles", "why_tests_cant": "the domain is all doubles, including infinities and NaN", "anchors": ["src/lib/shadow/bbox.cpp: Bbox::operator +=, operator +, Bbox::Bbox(void)"]}
{"id": "C04", "title": "A mesh built from points reports the tightest box around them", "statement": "After every construction of a Mesh from a list of points, bbox() contains each point and every box containing all the points contains it, whatever the order of the points; for no points it is the empty box.", "quantifier": "all finite lists of points", "why_tests_cant": "lists of every length and order", "anchors": ["src/lib/shadow/mesh.cpp: Mesh::compute_bbox, Mesh::Mesh, Mesh::bbox"]}
{"id": "C05", "title": "A Face has at least three vertices", "statement": "The list constructors of Face succeed exactly on lists of at least 3 indexes and then store them unchanged; shorter lists throw logic_error; the three index constructor yields (a,b,c) or (a,c,b).", "quantifier": "all index lists", "why_tests_cant": "lists of every length", "anchors": ["src/lib/shadow/face.cpp: Face::Face"]}
{"id": "C06", "title": "Inverting the orientation of a face reverses its boundary", "statement": "On every non empty face invert_orientation keeps the first vertex and the multiset of vertices, reverses every directed boundary edge, and applying it twice gives back the same face.", "quantifier": "all non empty faces", "why_tests_cant": "faces of every degree", "anchors": ["src/lib/shadow/face.cpp: Face::invert_orientation"]}
{"id": "C07", "title": "Rotating a face only changes its starting vertex", "statement": "rotate() keeps the directed boundary edges (as a cycle), rotate(m) after rotate(n) is rotate(m+n) modulo the degree, rotating degree() times is the identity, and every rotation of a face with distinct vertices is == to the face.", "quantifier": "all faces and all rotation counts in range", "why_tests_cant": "unbounded degrees and counts", "anchors": ["src/lib/shadow/face.cpp: Face::rotate"]}
{"id": "C08", "title": "Face equality is equality of cyclic vertex sequences", "statement": "== on faces is an equivalence relation that holds exactly when one index sequence is a rotation of the other, and != is its negation.", "quantifier": "all pairs and triples of faces", "why_tests_cant": "relation laws quantify over all pairs and triples", "anchors": ["src/lib/shadow/face.cpp: operator==, operator!="]}
{"id": "C09", "title": "is_convex decides convexity of planar faces", "statement": "For a face whose vertices lie in a plane, is_convex(coordinates) is true exactly when the polygon is strictly convex; the answer depends neither on the starting vertex nor on the orientation nor on translations of the coordinates; it throws out_of_range exactly when an index or the size is out of range.", "quantifier": "all faces and coordinate lists", "why_tests_cant": "all degrees and positions", "anchors": ["src/lib/shadow/face.cpp: Face::is_convex"]}
{"id": "C10", "title": "Triangulating a convex face for 3DS preserves it", "statement": "For a convex face of degree n whose indexes fit in the 16 bits of the format (C17 is about larger meshes), to_3ds yields exactly n-2 triangles whose vertices are vertices of the face, whose vector areas add up to that of the face, in which every boundary edge occurs once and every inner edge occurs in both directions; otherwise logic_error (or out_of_range) is thrown.", "quantifier": "all faces and coordinate lists", "why_tests_cant": "all degrees", "anchors": ["src/lib/shadow/face.cpp: Face::to_3ds"]}
{"id": "C11", "title": "Index rewriting on faces", "statement": "offset(d) adds d to every index and offsets compose; overide(i,j) returns true iff i occurs and then changes exactly the first occurrence of i, leaving degree and other indexes unchanged.", "quantifier": "all faces, indexes and offsets", "why_tests_cant": "unbounded", "anchors": ["src/lib/shadow/face.cpp: Face::offset, Face::find, Face::overide"]}
{"id": "C12", "title": "Mesh concatenation keeps every face on its own geometry", "statement": "For valid meshes a, b, (a + b) has points_size and faces_size the sums, its faces seen as coordinate polygons are those of a followed by those of b, and all its indexes are valid; concatenating any list of valid meshes yields a valid mesh with all polygons in order.", "quantifier": "all pairs and all finite lists of valid meshes", "why_tests_cant": "sizes and list lengths unbounded", "anchors": ["src/lib/shadow/mesh.cpp: Mesh::operator +=, operator +", "src/lib/shadow/face.cpp: Face::offset"]}
{"id": "C13", "title": "Mesh concatenation is associative with the empty mesh as identity", "statement": "(a+b)+c and a+(b+c) have the same points and faces, and the same name exactly when a has no points or b has some (with points in a and none in b the left sum keeps the name of b and the right one drops it); both are == for faces without repeated indexes, and Mesh() is a left and right identity up to == (on the right of a non-empty mesh it adds an underscore to the name).", "quantifier": "all triples of meshes", "why_tests_cant": "unbounded", "anchors": ["src/lib/shadow/mesh.cpp: Mesh::operator +=, operator =, is_empty"]}
{"id": "C14", "title": "The bounding box of a sum of meshes encloses all its points", "statement": "After any sequence of += the bounding box of the resulting mesh is the tight box of all its points.", "quantifier": "all sequences of concatenations, including those starting from Mesh()", "why_tests_cant": "history property", "anchors": ["src/lib/shadow/mesh.cpp: Mesh::operator =, Mesh::operator +=, bbox"]}
{"id": "C15", "title": "Mesh equality is an equivalence relation", "statement": "== on meshes is reflexive, symmetric and transitive, ignores the name, and means same points in order and faces pairwise equal up to rotation.", "quantifier": "all meshes", "why_tests_cant": "relation laws", "anchors": ["src/lib/shadow/mesh.cpp: operator ==, operator !="]}
{"id": "C16", "title": "A mesh survives the trip to the 3DS representation and back", "statement": "Mesh(m.to_3ds()) has the points of m and, face by face, the triangles of m with the same orientation.", "quantifier": "all meshes", "why_tests_cant": "all face degrees and degenerate triangles", "anchors": ["src/lib/shadow/mesh.cpp: Mesh::to_3ds, Mesh::Mesh(Lib3dsMesh*)", "src/lib/shadow/face.cpp: Face::to_3ds"]}
{"id": "C17", "title": "3DS conversion respects the 16 bit format limits", "statement": "to_3ds never writes outside the structures it allocates and never changes an index silently, for every mesh.", "quantifier": "all meshes, of any size and name", "why_tests_cant": "needs more than 65535 points / memory error detection", "anchors": ["src/lib/shadow/mesh.cpp: Mesh::to_3ds", "src/lib/shadow/face.cpp: Face::to_3ds"]}
{"id": "C18", "title": "Writing a mesh to OFF and reading it back gives the same mesh", "statement": "For every mesh with valid faces, reading what Off_stream wrote gives a mesh with the same faces and the same number of points, and with the same coordinates whenever they have at most six significant decimal digits.", "quantifier": "all meshes and all names without line breaks", "why_tests_cant": "unbounded sizes and values", "anchors": ["src/include/io/Off_stream/off_stream.h: operator <<, operator >>", "src/lib/io/io_off.cpp"]}
{"id": "C19", "title": "The OFF reader handles every text: mesh or exception", "statement": "For every input text, reading from an Off_stream either returns a mesh or throws a documented exception, without undefined behaviour.", "quantifier": "all finite texts", "why_tests_cant": "all strings", "anchors": ["src/include/io/Off_stream/off_stream.h: operator >>, parse, read_header, read_points, read_faces"]}
{"id": "C20", "title": "The OFF reader ignores comment lines and blank lines", "statement": "Inserting or removing lines starting with '#' or empty lines anywhere in the text does not change what Off_stream reads.", "quantifier": "all texts and all insertion positions", "why_tests_cant": "all strings and positions", "anchors": ["src/include/io/Off_stream/off_stream.h: parse"]}
{"id": "C21", "title": "An OFF file that is accepted has exactly the declared content", "statement": "If reading succeeds, the mesh has exactly the numbers of points and faces of the size line, every face has the declared degree (at least 3), and every face index refers to a read point.", "quantifier": "all texts on which reading succeeds", "why_tests_cant": "all strings", "anchors": ["src/include/io/Off_stream/off_stream.h: read_header, read_points, read_faces"]}
{"id": "C22", "title": "Coordinates written by the text formats lose at most half a unit of the sixth digit, once", "statement": "For every coordinate x the value read back differs from x by at most 5e-6*|x| relative, is exactly x when x has at most six significant digits, keeps sign and order (monotone), and a second write/read changes nothing.", "quantifier": "all finite coordinates", "why_tests_cant": "all reals", "anchors": ["src/lib/shadow/point.cpp: operator <<", "src/include/io/Off_stream/off_stream.h: print_points, read_points", "src/include/io/Obj_stream/obj_stream.h"]}
{"id": "C23", "title": "Writing meshes to OBJ and reading them back keeps every polygon", "statement": "For every non empty list of meshes with valid faces and distinct one-word names, reading what Obj_stream wrote yields one mesh per name, ordered by name, whose faces visit the same coordinates in the same order.", "quantifier": "all lists of meshes", "why_tests_cant": "unbounded lists", "anchors": ["src/include/io/Obj_stream/obj_stream.h: operator <<, operator >>"]}
{"id": "C24", "title": "OBJ reading canonicalises: a second round trip changes nothing", "statement": "Meshes obtained by reading an OBJ text are unchanged (points, faces, names, order) by writing them and reading them again.", "quantifier": "all OBJ texts accepted by the reader", "why_tests_cant": "all texts", "anchors": ["src/include/io/Obj_stream/obj_stream.h"]}
{"id": "C25", "title": "Meshes read from OBJ are compact and index-valid", "statement": "Each mesh read from an OBJ text contains only points referenced by its faces, each vertex of the file at most once, and every face index is valid.", "quantifier": "all OBJ texts accepted", "why_tests_cant": "all texts", "anchors": ["src/include/io/Obj_stream/obj_stream.h: read_facet, read_object", "src/lib/algorithms/io_algorithms.cpp: select"]}
{"id": "C26", "title": "The OBJ reader handles every text: meshes or exception", "statement": "For every input text, reading from an Obj_stream either returns meshes or throws, without undefined behaviour.", "quantifier": "all finite texts", "why_tests_cant": "all strings", "anchors": ["src/include/io/Obj_stream/obj_stream.h: operator >>", "src/lib/algorithms/io_algorithms.cpp: str2pt, select"]}
{"id": "C27", "title": "OBJ output indexes point to the right vertex lines", "statement": "In the text written for a list of meshes, the k-th index of a face of mesh m is the 1-based number of the v-line of the point it denotes, for every mesh in the list; the empty list is written as well.", "quantifier": "all lists of meshes", "why_tests_cant": "unbounded lists", "anchors": ["src/include/io/Obj_stream/obj_stream.h: operator <<, print_mesh_faces"]}
{"id": "C28", "title": "Handlers never touch a file in a mode they were not opened for", "statement": "Every read operation of a handler not opened for reading throws before any file access, and every write operation of a handler not opened for writing throws and leaves the file system unchanged.", "quantifier": "all handlers, modes, paths and file system states", "why_tests_cant": "all states", "anchors": ["src/lib/io/io_off.cpp", "src/lib/io/io_obj.cpp", "src/lib/io/io_3ds.cpp", "src/lib/io/io_vector.cpp", "src/lib/io/io_raster.cpp", "src/lib/io/io_scene_tree.cpp"]}
{"id": "C29", "title": "Reading an OBJ scene separates the terrain from the buildings without loss", "statement": "Reading with an excluded name returns as buildings exactly the objects with another name, in order, and as terrain the concatenation of those with that name, renamed; no polygon is lost or duplicated.", "quantifier": "all object lists and all names", "why_tests_cant": "all lists", "anchors": ["src/lib/io/io_obj.cpp: WaveObjHandler::read, exclude_mesh, get_scene"]}
{"id": "C30", "title": "Writing a scene to a directory of OFF files and reading it back gives the same scene", "statement": "For every scene with distinct valid building names and a terrain, the OFF directory written by SceneHandler is read back as the same buildings and terrain.", "quantifier": "all scenes", "why_tests_cant": "all scenes and directory contents", "anchors": ["src/lib/io/io_scene.cpp: write, read, get_off_scene", "src/lib/io/io_off.cpp"]}
{"id": "C31", "title": "Scene formats are resolved totally and consistently", "statement": "A SceneHandler for format f and path p is created only if f is one of the four supported formats and the extension of p matches that format (OFF excepted: a directory); any other format throws.", "quantifier": "all format strings and paths", "why_tests_cant": "all strings", "anchors": ["src/lib/io/io_scene.cpp: SceneHandler::SceneHandler, check_extension"]}
{"id": "C32", "title": "A 3DS handler is opened in exactly one mode", "statement": "Constructing a T3DSHandler succeeds only with exactly one of read and write requested, and reading requires the file to exist.", "quantifier": "all mode maps and file system states", "why_tests_cant": "all maps", "anchors": ["src/lib/io/io_3ds.cpp: T3DSHandler::T3DSHandler"]}
{"id": "C33", "title": "get_nodes(level) lists the nodes at the given depth of the scene graph", "statement": "For every 3DS node forest and every level the handler returns exactly the nodes at that depth.", "quantifier": "all forests and levels", "why_tests_cant": "unbounded trees", "anchors": ["src/lib/io/io_3ds.cpp: get_nodes, level_meshes"]}
{"id": "C34", "title": "Meshes of a named node are returned exactly", "statement": "Asking for the meshes under a node name returns one mesh per matching node of its subtree and nothing else.", "quantifier": "all forests, names and type sets", "why_tests_cant": "unbounded trees", "anchors": ["src/lib/io/io_3ds.cpp: node_meshes, meshes"]}
{"id": "C35", "title": "Collecting by type visits every node of the subtree once", "statement": "The recursive collection returns, in post-order, the meshes of exactly those nodes of the subtree whose mesh exists and whose name starts with one of the type letters.", "quantifier": "all forests", "why_tests_cant": "unbounded trees", "anchors": ["src/lib/io/io_3ds.cpp: node_meshes, mesh_by_type"]}
{"id": "C36", "title": "The scene tree supplies pivot, EPSG code and building identifiers", "statement": "Reading a scene tree returns the declared pivot (or the centre of the declared bounding box), the declared EPSG code, and the identifiers of the buildings in document order.", "quantifier": "all documents", "why_tests_cant": "all documents", "anchors": ["src/lib/io/io_scene_tree.cpp"]}
{"id": "C37", "title": "Plane heights lie on the plane of the face", "statement": "For every face print with a non vertical plane, (x, y, get_plane_height(x,y)) satisfies the plane equation, and it is the only such height; for a vertical plane overflow_error is thrown.", "quantifier": "all planes and query points", "why_tests_cant": "all coordinates", "anchors": ["src/lib/projection/face_projection.cpp: get_plane_height"]}
{"id": "C38", "title": "Projected faces are stored counterclockwise with their plane", "statement": "The face print of a facet has the (x,y) of the facet's vertices as outer border, counterclockwise when simple, and all facet vertices satisfy the stored plane.", "quantifier": "all facets", "why_tests_cant": "all facets", "anchors": ["src/lib/projection/face_projection.cpp: FacePrint::FacePrint(Polyhedron::Facet)"]}
{"id": "C39", "title": "The area of a face print is the area of its region", "statement": "area() is the outer area minus the area of the holes; it is invariant under rotation of the vertex list and translation.", "quantifier": "all polygons with holes", "why_tests_cant": "all polygons", "anchors": ["src/lib/projection/face_projection.cpp: area"]}
{"id": "C40", "title": "get_height is the plane height inside and zero outside", "statement": "get_height(p) is the plane height for every p inside the border, zero for every p outside, for every non degenerate face print.", "quantifier": "all face prints and points", "why_tests_cant": "all points", "anchors": ["src/lib/projection/face_projection.cpp: get_height, contains"]}
{"id": "C41", "title": "Face print equality is an equivalence relation", "statement": "== on face prints is an equivalence relation, compares border and plane, ignores the identifier.", "quantifier": "all face prints", "why_tests_cant": "relation laws", "anchors": ["src/lib/projection/face_projection.cpp: operator ==, equal_border, has_same_plane"]}
{"id": "C42", "title": "Vector export keeps the geometry", "statement": "Exporting a face print to a vector feature with a reference point translates the border by the reference and stores the plane translated by it, and importing such a feature gives the translated border back.", "quantifier": "all face prints and reference points", "why_tests_cant": "all coordinates", "anchors": ["src/lib/projection/face_projection.cpp: to_ogr, FacePrint(OGRFeature*)", "src/lib/projection/utilities.cpp: to_ogr, get_ogr_ring"]}
{"id": "C43", "title": "Orthographic projection keeps exactly the non vertical facets", "statement": "orthoprint returns, in facet order, one face print per facet that is neither empty nor degenerate, with the facet identifier.", "quantifier": "all surfaces", "why_tests_cant": "all surfaces", "anchors": ["src/lib/projection/utilities.cpp: orthoprint"]}
{"id": "C44", "title": "Inserting a face never loses covered ground", "statement": "After inserting a face into a brick print, the region covered by the brick is the union of the region covered before and the face's region.", "quantifier": "all brick prints and faces", "why_tests_cant": "all configurations", "anchors": ["src/lib/projection/brick_projection.cpp: operator +=, occlusion"]}
{"id": "C45", "title": "Faces of a brick print do not overlap", "statement": "After any sequence of insertions the interiors of the faces in a brick print are pairwise disjoint.", "quantifier": "all insertion sequences", "why_tests_cant": "history property", "anchors": ["src/lib/projection/brick_projection.cpp: operator +=, occlusion"]}
{"id": "C46", "title": "A brick print is the upper envelope of the inserted faces", "statement": "At every covered ground point the height of the brick print is the maximum of the heights of the inserted faces containing the point.", "quantifier": "all insertion sequences and points", "why_tests_cant": "history property over all points", "anchors": ["src/lib/projection/brick_projection.cpp: operator +=, occlusion, is_under, get_height"]}
{"id": "C47", "title": "Brick print insertion is order independent", "statement": "Inserting the same faces in any order gives a brick print with the same covered region.", "quantifier": "all permutations of insertion sequences", "why_tests_cant": "all permutations", "anchors": ["src/lib/projection/brick_projection.cpp: operator +="]}
{"id": "C48", "title": "Brick print equality is equality of the sets of faces", "statement": "== on brick prints holds exactly when one list of faces is a permutation of the other (up to face equality), and is an equivalence relation.", "quantifier": "all brick prints", "why_tests_cant": "relation laws", "anchors": ["src/lib/projection/brick_projection.cpp: operator =="]}
{"id": "C49", "title": "Filtering and bounding boxes of brick prints", "statement": "filter removes exactly the empty and degenerate faces, keeping order; the bounding box of a brick only grows and contains every inserted face, whether or not the face is hidden.", "quantifier": "all insertion sequences", "why_tests_cant": "history property", "anchors": ["src/lib/projection/brick_projection.cpp: filter, operator +="]}
{"id": "C50", "title": "Footprints with different references are never merged", "statement": "FootPrint += throws when the left side is not empty and reference or EPSG differ, leaving it unchanged; otherwise the result has the union of faces and the common reference.", "quantifier": "all pairs and sequences of footprints", "why_tests_cant": "history property", "anchors": ["src/lib/projection/scene_projection.cpp: operator +="]}
{"id": "C51", "title": "Rasterising never writes outside the image", "statement": "For every footprint whose faces lie in its bounding box and every positive pixel size for which the image size fits in 64 bits, rasterising succeeds and each face writes only pixels inside the image, each at its row and column; a pixel size of zero is undefined.", "quantifier": "all boxes, faces, pixel sizes; all doubles", "why_tests_cant": "all reals and doubles: floor, ceil and rounding corner cases", "anchors": ["src/lib/projection/face_projection.cpp: rasterize", "src/lib/projection/raster_projection.cpp: RasterPrint::RasterPrint"]}
{"id": "C52", "title": "A pixel is the mean of the heights of the faces that meet it", "statement": "After rasterising a footprint the hit count of each pixel is the number of faces that meet the square of this pixel, and its value is the reference height plus the mean of one height per such face, each between the extreme heights of that face over the pixel; 0 if no face meets it.", "quantifier": "all lists of faces and all pixels", "why_tests_cant": "history property", "anchors": ["src/lib/projection/face_projection.cpp: rasterize"]}
{"id": "C53", "title": "Pixel access is bounds checked", "statement": "at(i,j) returns the pixel in row i and column j when i < height and j < width, and throws otherwise.", "quantifier": "all images and indexes", "why_tests_cant": "all indexes", "anchors": ["src/lib/projection/raster_projection.cpp: at, hit"]}
{"id": "C54", "title": "Vertical offset is applied once, to hit pixels only", "statement": "vertical_offset adds the reference height to exactly the pixels with hits, and calling it any number of times equals calling it once.", "quantifier": "all images and call counts", "why_tests_cant": "history property", "anchors": ["src/lib/projection/raster_projection.cpp: vertical_offset"]}
{"id": "C55", "title": "Raster equality compares the images", "statement": "== on raster prints holds exactly when size, reference, pixel size and all pixel values agree.", "quantifier": "all pairs of images", "why_tests_cant": "relation", "anchors": ["src/lib/projection/raster_projection.cpp: operator =="]}
{"id": "C56", "title": "A raster print survives export to a GDAL dataset and import", "statement": "Reading a dataset written from a raster print gives the same size, pixel size, reference point, EPSG code and pixel values; a dataset without square upright pixels is refused.", "quantifier": "all images", "why_tests_cant": "all images", "anchors": ["src/lib/projection/raster_projection.cpp: to_gdal, RasterPrint(GDALDataset*)"]}
{"id": "C57", "title": "Facet adjacency is a symmetric relation", "statement": "The facet adjacency matrix of every closed or open surface is n x n, symmetric, and has 1 on the diagonal and exactly for the pairs of facets sharing an edge.", "quantifier": "all half-edge surfaces", "why_tests_cant": "all surfaces", "anchors": ["src/lib/scene/unode.cpp: facet_adjacency_matrix"]}
{"id": "C58", "title": "Facets are numbered 0..n-1", "statement": "After construction, and again after set_face_ids or prune, the facet identifiers are exactly 0..n-1 in facet order, hence distinct.", "quantifier": "all surfaces", "why_tests_cant": "all surfaces", "anchors": ["src/lib/scene/unode.cpp: set_face_ids"]}
{"id": "C59", "title": "Pruning merges only coplanar faces and terminates", "statement": "prune terminates, joins two faces only if they are coplanar with the same orientation, and leaves no joinable pair.", "quantifier": "all surfaces", "why_tests_cant": "termination and history", "anchors": ["src/lib/scene/unode.cpp: prunable, combinable", "src/lib/algorithms/unode_algorithms.cpp: prune"]}
{"id": "C60", "title": "Affine transforms of a node act on all points and compose", "statement": "translate, scale, rotate and affine_transform map each vertex by the stated map, leave faces unchanged, translations compose additively and are undone by the opposite one, rotations preserve distances.", "quantifier": "all surfaces and parameters", "why_tests_cant": "all coordinates", "anchors": ["src/lib/scene/unode.cpp: affine_transform", "src/lib/algorithms/unode_algorithms.cpp: translate, scale, rotate"]}
{"id": "C61", "title": "The bounding box of a node follows its geometry", "statement": "bbox() of a node is the tight box of its current points after any sequence of transformations.", "quantifier": "all transformation sequences", "why_tests_cant": "history property", "anchors": ["src/lib/scene/unode.cpp: bbox, affine_transform"]}
{"id": "C62", "title": "extrem_points and check_collinearity are correct", "statement": "check_collinearity holds exactly when all points are on a line; extrem_points returns two points of the list between which all the collinear points lie.", "quantifier": "all circuits of points", "why_tests_cant": "all lists", "anchors": ["src/lib/algorithms/util_algorithms.cpp: check_collinearity, extrem_points"]}
{"id": "C63", "title": "The centroid of a facet is its centre of gravity", "statement": "centroid(facet) is the centre of gravity of the facet: for a triangle the mean of its corners; hence it lies in the facet and moves with translations. The centroid of a polygon of the plane used by the rasteriser is the mean of its distinct vertices. area(unode) of a triangulated surface is the sum of the areas of its triangles and is multiplied by c\u00b2 when all distances are multiplied by c.", "quantifier": "all surfaces and facets", "why_tests_cant": "all coordinates", "anchors": ["src/lib/scene/unode.cpp: centroid"]}
{"id": "C64", "title": "The circumference is the sum of edge lengths", "statement": "circumference of a facet is the sum of its edge lengths, is independent of the starting edge and invariant under translation; total_edge_length is the sum of the lengths of the edges, each counted once.", "quantifier": "all facets", "why_tests_cant": "all coordinates", "anchors": ["src/lib/scene/unode.cpp: circumference, edge lengths"]}
{"id": "C65", "title": "The adjacency stream prints exactly an n by n matrix", "statement": "Writing a vector of booleans of size n*n prints n lines of n entries which determine the vector; any other size throws logic_error.", "quantifier": "all vectors", "why_tests_cant": "all sizes", "anchors": ["src/include/io/Adjacency_stream/adjacency_stream.h"]}
{"id": "C66", "title": "Projecting a scene yields one footprint per object", "statement": "orthoproject returns one footprint per building in order, plus the terrain if requested, all with the scene's pivot and EPSG code; so they can be summed. Pruning a scene prunes each building and, if requested, the terrain; rasterize_scene gives one image per footprint, in order.", "quantifier": "all scenes", "why_tests_cant": "all scenes", "anchors": ["src/lib/algorithms/scene_algorithms.cpp: orthoproject"]}
{"id": "C67", "title": "Command line tools act only on what was requested", "statement": "The tools rasterise only when a pixel size is given, write only the requested outputs, and report failure through the exit status.", "quantifier": "all argument combinations and failures", "why_tests_cant": "all combinations", "anchors": ["src/bin/orthoproject.cpp", "src/bin/cityformat.cpp"]}
{"id": "C68", "title": "Saving the objects of a scene writes one file per object", "statement": "save_building_duals, save_building_prints and save_building_rasters leave each object's content in the file with its name and touch nothing else.", "quantifier": "all scenes, names and file system states", "why_tests_cant": "all names and states", "anchors": ["src/lib/algorithms/scene_algorithms.cpp: save_building_duals, save_building_prints, save_building_rasters"]}
{"id": "C69", "title": "Writing a raster or vector file succeeds or throws", "statement": "VectorHandler::write and RasterHandler::write either write exactly the given file, or throw and leave all files unchanged.", "quantifier": "all modes, paths, images, footprints and file system states", "why_tests_cant": "all failure points", "anchors": ["src/lib/io/io_raster.cpp: RasterHandler::write", "src/lib/io/io_vector.cpp: VectorHandler::write"]}
{"id": "C70", "title": "Raster and vector files written by the library can be read by any process", "statement": "A file written by RasterHandler or VectorHandler is read back, whatever the process did before, with the name of the file and the content written; without the read mode, for a missing or unreadable file, read throws.", "quantifier": "all histories of the process, all images and footprints", "why_tests_cant": "history property", "anchors": ["src/lib/io/io_raster.cpp: RasterHandler::read", "src/lib/io/io_vector.cpp: VectorHandler::read"]}
{"id": "C71", "title": "Measures of a footprint", "statement": "The area of a footprint is the sum of the areas of its faces; its circumference is the length of the boundary of the union of its faces.", "quantifier": "all footprints", "why_tests_cant": "all geometries", "anchors": ["src/lib/projection/brick_projection.cpp: areas, area, edge_lengths, circumference"]}
{"id": "C72", "title": "A node becomes a mesh facet by facet", "statement": "Mesh(node) has the name of the node, its vertices in order rounded to doubles, and one face per facet, in order, listing the positions of the corners along the boundary; all indexes are valid, every face has three corners at least, the box is tight; a closed node gives a mesh without border.", "quantifier": "all valid surfaces, closed or not, all roundings", "why_tests_cant": "all surfaces", "anchors": ["src/lib/shadow/mesh.cpp: Mesh::Mesh(name, polyhedron), Mesh::Mesh(unode)", "src/lib/shadow/face.cpp: Face::Face(facet, points_index)"]}
{"id": "C73", "title": "A mesh survives the trip to a node and back", "statement": "UNode(mesh) carries the name, the points and the faces of a mesh that is an oriented surface; converted back, points and faces are the same up to the first corner of each face, except that all faces are turned when the surface is closed and not outward oriented. A second trip changes nothing.", "quantifier": "all meshes whose faces form an oriented surface", "why_tests_cant": "all surfaces", "anchors": ["src/lib/scene/unode.cpp: UNode::UNode(mesh, ...), UNode::UNode(building_id, points, polygons, ...)", "src/lib/shadow/mesh.cpp: get_cgal_points, get_cgal_faces"]}
{"id": "C74", "title": "The edges between coplanar facets are found", "statement": "combinable(facet) lists the half-edges opposite to the edges across which the neighbour is coplanar with the facet, and no others; pruning_halfedges lists every edge between coplanar facets exactly once.", "quantifier": "all valid surfaces with plane facets", "why_tests_cant": "all surfaces", "anchors": ["src/lib/scene/unode.cpp: combinable, pruning_halfedges"]}
{"id": "C75", "title": "border_length is the length of the border", "statement": "border_length returns the sum of the lengths of the border edges of the surface, zero for a closed one.", "quantifier": "all valid surfaces, open or closed", "why_tests_cant": "all surfaces", "anchors": ["src/lib/algorithms/unode_algorithms.cpp: border_length"]}
{"id": "C76", "title": "Objects are values", "statement": "Copying, moving, assigning and swapping objects of every class of the library gives each object the value the history says: a copy equals its source, assignment and swap work when both operands are the same object, and no other object changes.", "quantifier": "all histories of constructions, copies, moves, assignments and swaps, over any objects of any class, with any aliasing", "why_tests_cant": "all histories and aliasings", "anchors": ["src/lib/shadow/*.cpp, src/lib/scene/*.cpp, src/lib/projection/*.cpp: copy and move constructors, operator =, swap"]}
{"id": "C77", "title": "Compound assignments work on the same object", "statement": "a op= b gives a the result of the operation on the two values and changes nothing else, also when a and b are the same object; the binary operators change neither operand.", "quantifier": "all vectors, boxes, meshes, brick prints and footprints, the same object on both sides included", "why_tests_cant": "all values and aliasings", "anchors": ["src/lib/shadow/vector.cpp: operator ^=", "src/lib/shadow/mesh.cpp: operator +=", "src/lib/projection/brick_projection.cpp: operator +=", "src/lib/projection/scene_projection.cpp: operator +=, operator +"]}
{"id": "C78", "title": "Point queries on a footprint agree", "statement": "contains and get_height of a brick print give the same answer for a point of doubles and for the same exact point; a contained point is in_domain and in one of the inserted faces, and a point that is not contained has the height 0.", "quantifier": "all brick prints, all histories of insertions, all points", "why_tests_cant": "all points and all shapes", "anchors": ["src/lib/projection/face_projection.cpp: get_height, contains", "src/lib/projection/brick_projection.cpp: get_height, contains, in_domain"]}
{"id": "C79", "title": "Printing a raster shows the whole image and leaves the stream alone", "statement": "operator << writes the metadata and then every pixel once, row by row, as nested lists with six decimals, and leaves the format of the stream as it was.", "quantifier": "all raster prints and all streams", "why_tests_cant": "all image sizes, contents and stream states", "anchors": ["src/lib/projection/raster_projection.cpp: operator <<"]}
{"id": "C80", "title": "A camera is what its parameters say", "statement": "The constructors of a camera give the name and position passed, the calibration (x, y) -> (f sx x + cx, f sy y + cy) and an orientation that is the composition of the given rotations; without rotations the orientation is the identity and the focal-distance constructor is the scale-factor constructor with factors 1.", "quantifier": "all focal distances, factors, principal points, positions and lists of rotations", "why_tests_cant": "all real parameters and lists of rotations", "anchors": ["src/lib/projection/camera.cpp: Camera::Camera (all constructors)", "src/lib/scene/affine_transformations.cpp: rotation_transform"]}
{"id": "C81", "title": "A text in OFF or OBJ notation is read as what it says", "statement": "Reading an OFF or OBJ text gives exactly the points, faces and objects the text describes in the notation of the format, whatever the blanks between the words, the signs, fractions and exponents of the numbers, the comments and the end of the last line; Windows line ends change nothing.", "quantifier": "all texts of the two notations, with any spacing, number notation and comments, and all roundings", "why_tests_cant": "all texts of a grammar", "anchors": ["src/include/io/Off_stream/off_stream.h: operator >>", "src/include/io/Obj_stream/obj_stream.h: operator >>", "src/include/io/Line/line.h: readlines", "src/lib/algorithms/io_algorithms.cpp: line2pt, str2pt"]}
{"id": "C82", "title": "A write that returns has written", "statement": "When OFFHandler::write or WaveObjHandler::write returns, the file holds the text of the meshes and no other file has changed; otherwise it throws and nothing has changed.", "quantifier": "all meshes, paths, modes and states of the file system", "why_tests_cant": "the file system may be in any state: missing directories, a directory in place of the file, an existing file", "anchors": ["src/lib/io/io_off.cpp:53-68 OFFHandler::write", "src/lib/io/io_obj.cpp:66-81 WaveObjHandler::write"]}
{"id": "C83", "title": "A handler of OBJ files holds the meshes its history says", "statement": "After any sequence of read, add_mesh, exclude_mesh and write, data() are the meshes of the last successful read (or of the construction) without those of excluded names, then those added and not excluded later, in order; no polygon is lost between data() and the meshes returned by exclude_mesh; only the file of the handler changes; write stores the meshes held.", "quantifier": "all histories of calls, all meshes, modes and states of the file system", "why_tests_cant": "histories are unbounded and mix failing and succeeding calls", "anchors": ["src/include/io/io_obj.h:14-37 WaveObjHandler", "src/lib/io/io_obj.cpp:12-117"]}
{"id": "C84", "title": "A 3DS scene is read object by object", "statement": "Reading a scene from a 3DS file gives one building per node below the top node (format 3DS) or per building listed in the XML document (format 3DS XML), in order, with the name of the node and all the polygons of its facade and roof parts, a terrain with all the polygons of the terrain parts, and the position and code of the document; what cannot be read throws.", "quantifier": "all files loaded by lib3ds (any forest of nodes, any meshes), all documents, modes and states of the file system", "why_tests_cant": "node forests have any depth and any names; documents may miss anything", "anchors": ["src/lib/io/io_scene.cpp:44-118 SceneHandler::read", "src/lib/io/io_3ds.cpp:49-88 T3DSHandler::get_scene", "src/lib/io/io_3ds.cpp:113-137 level_meshes, level_terrain"]}
{"id": "C85", "title": "A scene survives an OBJ file", "statement": "A scene written in OBJ format and read again from the file has the same buildings and terrain: same names and polygons, coordinates as printed. No other file changes.", "quantifier": "every scene whose meshes can be written (finite coordinates, faces of at least three existing points, distinct one-word names), every file system and writable path, all modes, every conversion of decimals exact up to 2^53", "why_tests_cant": "Needs all scenes, names and file systems; the order of names and the name of the terrain matter.", "anchors": ["src/lib/io/io_scene.cpp: SceneHandler::read, SceneHandler::write", "src/lib/io/io_obj.cpp: WaveObjHandler(path, modes, scene), get_scene, exclude_mesh"]}
{"id": "C86", "title": "The tools make what their options ask for", "statement": "When everything requested can be computed and written, cityformat leaves the converted scene at <path> (one OFF file per object with its name, or one OBJ file with all of them), and orthoproject leaves the dual graphs (--graphs), the shape file (with or without labels) and attributes of every footprint, the shape file of the scene (--scene), and images of the requested pixel size; each option has its own effect and no output overwrites another one.", "quantifier": "every command line, file system, scene, library behaviour and result of the projections", "why_tests_cant": "Needs all combinations of options, scenes, names and states of the disk.", "anchors": ["src/bin/orthoproject.cpp: Arguments, main", "src/bin/cityformat.cpp: Arguments, main", "src/lib/algorithms/scene_algorithms.cpp"]}
{"id": "C87", "title": "A node made of several meshes is their union", "statement": "UNode(name, meshes, reference, epsg) for closed meshes gives a node whose closed surface encloses a point exactly when one of the meshes, made a node alone, encloses it; the order and repetition of the meshes do not matter; holes of open meshes are closed first; the name, reference point and EPSG code are the given ones and the box is that of the points.", "quantifier": "all lists of meshes, all points of space, all libraries of Nef polyhedra that obey the stated laws", "why_tests_cant": "There are infinitely many lists of meshes and points; tests only look at a few files.", "anchors": ["src/lib/scene/unode.cpp: UNode::UNode(std::string const&, std::vector<shadow::Mesh> const&, ...)"]}
{"id": "C88", "title": "Vector arithmetic on doubles", "statement": "With the doubles the code computes with, moving a point p by q - p leads to q, translations compose, a ^ a is zero and a ^ b is orthogonal to a; sums and scalar products commute, differences and cross products change sign when the operands are exchanged.", "quantifier": "all finite doubles as coordinates (all doubles for the symmetry laws), every order in which valarray::sum may add", "why_tests_cant": "Rounding depends on the values; a test tries a few, usually small integers for which nothing is rounded.", "anchors": ["src/lib/shadow/vector.cpp: operators, determinant", "src/lib/shadow/point.cpp: operators"]}
{"id": "C89", "title": "normal_to on doubles", "statement": "With the doubles the code computes with, normal_to(a, b, c) is not a number exactly for collinear points, and otherwise a unit normal of the triangle up to rounding; reversing the triangle reverses the normal.", "quantifier": "all finite doubles as coordinates (all doubles for the reversal), every order in which valarray::sum may add", "why_tests_cant": "Cancellation, overflow and underflow happen for particular coordinates only; a test tries a few triangles.", "anchors": ["src/lib/shadow/point.cpp: normal_to", "src/lib/shadow/vector.cpp: operator^, norm_L2, operator/"]}
{"id": "C90", "title": "is_convex on doubles", "statement": "With the doubles the code computes with, is_convex gives on planar faces the answer of exact arithmetic (C09), never has undefined behaviour, throws out_of_range exactly for missing coordinates or fewer than three vertices, accepts triangles and refuses larger faces with a vertex that is not a number.", "quantifier": "all faces, all finite doubles as coordinates (all doubles for the errors and NaN), every order in which valarray::sum may add", "why_tests_cant": "Whether rounding changes the sign of a turn depends on the coordinates; a test tries a few polygons.", "anchors": ["src/lib/shadow/face.cpp: Face::is_convex", "src/lib/shadow/vector.cpp: operator^, operator*"]}
{"id": "C91", "title": "3DS round trip of a mesh with doubles and floats", "statement": "Converting a mesh of triangles that are not flat, with finite double coordinates, to a 3DS mesh and reading that back gives the same mesh: same name, same points, same triangles with the same orientation.", "quantifier": "all meshes with double coordinates that fit the format, and all orders in which the standard library may sum three numbers", "why_tests_cant": "the values are rounded to single precision and the orientation is decided by a rounded determinant compared to an epsilon: which coordinates and triangles survive depends on all the digits", "anchors": ["src/lib/shadow/mesh.cpp: Mesh::to_3ds, Mesh::Mesh(Lib3dsMesh*)", "src/lib/shadow/face.cpp: Face::to_3ds", "src/lib/algebra/vector.cpp: determinant"]}
{"id": "C92", "title": "An OFF file cut short is noticed", "statement": "If the text of a mesh in OFF notation is cut at any place, because the writer was killed or the disk was full, reading what arrived either throws or gives the mesh that was written.", "quantifier": "all meshes that the format can hold and all places at which the text may be cut", "why_tests_cant": "the effect depends on the character at which the text ends: a test checks a few places, and the one that goes unnoticed is in the middle of a number", "anchors": ["src/lib/io/io_off.cpp: OFFHandler::read, OFFHandler::write", "src/lib/shadow/mesh.cpp: operator>>(std::istream&, Mesh&), operator<<(std::ostream&, Mesh const&)"]}
{"id": "C93", "title": "A printed mesh can be read back", "statement": "What os << mesh prints is a text in OFF notation: reading it gives the mesh that was printed.", "quantifier": "all meshes: any name, any number of points and faces, any coordinates and boxes, also infinite ones", "why_tests_cant": "whether the two added comment lines are ignored depends on the name, on the box and on the reader; the digits depend on the coordinates", "anchors": ["src/lib/shadow/mesh.cpp: operator<<(std::ostream&, Mesh const&)", "src/lib/shadow/bbox.cpp: operator<<(std::ostream&, Bbox const&)", "src/include/io/Off_stream/off_stream.h: Off_stream::operator>>"]}
{"id": "C94", "title": "A crash while results are written", "statement": "If the process ends while a mesh, a scene or the dual graphs of a scene are written, every file is as it was before or complete, no other file has changed, and what is left is read as it was before or as it should have become, or refused.", "quantifier": "all meshes, scenes and file systems, and all points at which the process may end", "why_tests_cant": "the crash can come between any two calls to the system: a test stops the program at a few of them", "anchors": ["src/lib/io/io_off.cpp: OFFHandler::write", "src/lib/io/io_obj.cpp: WaveObjHandler::write", "src/lib/io/io_scene.cpp: SceneHandler::write", "src/lib/algorithms/scene_algorithms.cpp: save_building_duals"]}
{"id": "C95", "title": "An OBJ file cut short is noticed", "statement": "If the text of a list of meshes in OBJ notation is cut at any place, because the writer was killed or the disk was full, reading what arrived either throws or gives the meshes that were written; reading it is never undefined.", "quantifier": "all lists of meshes that the format can hold, with distinct names, and all places at which the text may be cut", "why_tests_cant": "the effect depends on the line and the character at which the text ends; a test checks a few places of one file", "anchors": ["src/lib/io/obj_stream.h: operator<<, operator>>, read_objects, read_facets, object_names", "src/lib/io/io_obj.cpp: WaveObjHandler::read, WaveObjHandler::write"]}
{"id": "C96", "title": "What a brick print answers about points, polygons and faces", "statement": "contains(point) is true exactly for the points of the closed regions of its faces; overlaps(polygon) exactly when polygon and print share ground; contains(face) only if all the ground of the face is covered; get_height(point) is the height of the face there, and 0 outside; is_under(face) never fails, and is true only if the face is nowhere above the print.", "quantifier": "all brick prints, points, polygons and faces, for every CGAL whose Boolean operations are exact", "why_tests_cant": "the answers decide which faces are dropped, for all configurations", "anchors": ["src/lib/projection/brick_projection.cpp: contains, overlaps, get_height, is_under"]}
{"id": "C97", "title": "Tools that write at the same time", "statement": "If several processes write scenes or dual graphs at the same time, in whatever order their steps are done, each of them ends as if it were alone, and every file then holds the text that one of them wrote to it; processes that share a directory and agree on its terrain leave together one scene with all their buildings.", "quantifier": "all numbers of processes, all scenes, file systems and schedules (orders of the single steps)", "why_tests_cant": "the number of orders in which the steps of two processes can be done is astronomical; a test sees one of them", "anchors": ["src/lib/io/io_scene.cpp: SceneHandler::write", "src/lib/io/io_off.cpp: OFFHandler::write", "src/lib/algorithms/scene_algorithms.cpp: save_building_duals"]}
{"id": "C98", "title": "The heights of pixels in doubles", "statement": "The value of every pixel of the raster of a footprint is the mean of the heights of the faces in the pixel plus the height of the reference point; over faces that all have one height it is that height. In doubles, where the product, the sum and the quotient of the running mean, the heights of the planes and the final offset are rounded, this is false by a few units in the last place (three faces at 10 cm in one pixel give a pixel that is higher than all of them); the relative error is at most one in 2^51 for every height given to the pixel, every part of a face in the pixel and the offset, and there is no error for flat roofs whose height has at most 38 binary digits.", "quantifier": "every footprint, every pixel size, every library of polygon operations, every pixel with at most 32767 heights, every way of computing the heights of planes and of rounding positions", "why_tests_cant": "rounding errors depend on the number of faces in a pixel and on the values of all heights; they are found by tests only when the chosen heights happen to round up", "anchors": ["src/lib/projection/face_projection.cpp: FacePrint::rasterize, get_height, get_plane_height", "src/lib/projection/raster_projection.cpp: RasterPrint(FootPrint const&, double), vertical_offset"]}
{"id": "C99", "title": "Writing again after crashes", "statement": "Whoever runs a writer again after it was interrupted, however often and wherever, gets what an uninterrupted run would have given: the same outcome and the same files, for the writers of OFF files, of OBJ files, of scenes as directories of OFF files and of dual graphs.", "quantifier": "all numbers of interrupted attempts and all places of the interruptions, all meshes, scenes and duals (duals that fail included), all file systems before, all names of buildings", "why_tests_cant": "a crash can happen between any two calls to the operating system, and attempts can follow each other; tests cannot place crashes everywhere", "anchors": ["src/lib/io/io_off.cpp: OFFHandler::write", "src/lib/io/io_obj.cpp: WaveObjHandler::write", "src/lib/io/io_scene.cpp: SceneHandler::write", "src/lib/algorithms/scene_algorithms.cpp: save_building_duals"]}
{"id": "C100", "title": "Leftovers of another scene", "statement": "Writing a scene to a directory gives the same directory whether or not writing another scene there was interrupted before.", "quantifier": "all scenes, all interruption points, all file systems", "why_tests_cant": "the leftover files depend on the place of the interruption", "anchors": ["src/lib/io/io_scene.cpp: SceneHandler::write, SceneHandler::read"]}
{"id": "C101", "title": "The elevation map of a building shows its roofs", "statement": "The footprint of a building keeps its name, reference point and EPSG code and covers ground only under its facets that are not vertical, at their heights. If these roofs do not overlap when seen from above, the faces of the footprint are exactly the roofs, the height over a point of a roof is that of the roof, and every pixel of the raster of the footprint has as many hits as roofs meet it and the mean of their heights plus the reference height.", "quantifier": "all buildings (any number of facets with any number of vertices), all pixel sizes, all pixels, every library of polygon operations that obeys the laws of Lawful", "why_tests_cant": "the claim composes the projection of the facets, their insertion in a brick print, the conversion to a footprint and the painting of the image; tests only check single buildings", "anchors": ["src/lib/projection/utilities.cpp: orthoprint", "src/lib/projection/scene_projection.cpp: FootPrint::FootPrint(scene::UNode const&)", "src/lib/projection/brick_projection.cpp: operator +", "src/lib/projection/raster_projection.cpp: RasterPrint::RasterPrint(FootPrint const&, double)"]}
{"id": "C102", "title": "What a scene is read from", "statement": "A scene in a directory is read from the OFF files of this directory and nothing else: one building per file whose extension is off in small or capital letters and which is not called terrain, with the name of the file, and the terrain from terrain.off. Other files, directories and the rest of the disk do not matter; the order in which the system lists the directory only decides the order of the buildings. If one of these files is refused, or terrain.off is missing, an exception is thrown, whatever the order. An OBJ scene is read from its file only, a 3DS scene from its file and the XML document beside it.", "quantifier": "all directories with any number of files and any contents, all pairs of file systems which hold the same OFF files there, all orders of the listing", "why_tests_cant": "the order of a directory listing is chosen by the file system; tests see one order and one disk", "anchors": ["src/lib/io/io_scene.cpp: SceneHandler::read", "src/lib/io/io_off.cpp: OFFHandler::read", "src/lib/io/io_obj.cpp: WaveObjHandler::read"]}
{"id": "C103", "title": "No index out of nowhere", "statement": "Whatever a program does with the library - adding, copying, moving, swapping and renaming meshes, also onto themselves, reading OBJ texts, working with an OBJ handler, reading back OFF texts the library has written, taking meshes from polyhedra, nodes and 3DS files, in any order and any number of times - every index of every face of every mesh it obtains names a vertex of that mesh, if this is so for the meshes it starts from. The triangles written to 3DS, and the faces taken from it, name vertices that are there whatever the mesh was. The only door for a wrong index is a list or an OFF text that comes from elsewhere.", "quantifier": "all finite sequences of operations, all starting meshes with valid indexes, all texts, surfaces, scene graphs and histories of handlers", "why_tests_cant": "a test runs some sequences of operations; the invariant has to survive every sequence", "anchors": ["src/lib/shadow/mesh.cpp: Mesh", "src/include/io/Obj_stream/obj_stream.h: read", "src/lib/io/io_obj.cpp: WaveObjHandler", "src/lib/io/io_3ds.cpp: T3DSHandler", "src/lib/io/io_off.cpp: OFFHandler"]}
{"id": "C104", "title": "The horizontal position of the reference point does not matter", "statement": "A building stored relative to one reference point and the same building stored relative to another one at the same height, its coordinates adapted, give the same elevation map: the same size, pixels, hit counts and world coordinates, or the same exception. On the way the footprint has the same faces, identifiers, areas and heights, moved; footprints are added, and their sum refused, in the same way; and the outlines exported to vector files are the same points of the world.", "quantifier": "all buildings (lists of facets), reference points, horizontal displacements, pixel sizes and both orders of evaluation of the pixel update; all implementations of CGAL whose answers do not depend on absolute positions", "why_tests_cant": "a test compares two reference points for one building; an absolute coordinate left anywhere in the chain shows only for particular displacements", "anchors": ["src/lib/projection/scene_projection.cpp: FootPrint", "src/lib/projection/brick_projection.cpp: BrickPrint", "src/lib/projection/face_projection.cpp: FacePrint::rasterize, get_height", "src/lib/projection/raster_projection.cpp: RasterPrint", "src/lib/algorithms/util_algorithms.cpp: centroid"]}
{"id": "C105", "title": "The height of the reference point does not matter", "statement": "A building whose heights are given relative to one reference point and the same building with heights relative to another, higher or lower one give the same elevation map in the world: the same pixels with the same heights, and the same hit counts.", "quantifier": "all buildings (lists of facets), reference points, vertical displacements and pixel sizes, both orders of evaluation of the pixel update", "why_tests_cant": "a test compares two reference heights for one building; whether a sum of heights or a height 0 stands for no roof shows only for some arrangements", "anchors": ["src/lib/projection/brick_projection.cpp: is_under, get_height, occlusion", "src/lib/projection/face_projection.cpp: get_height, rasterize", "src/lib/projection/raster_projection.cpp: vertical_offset, RasterPrint", "src/lib/projection/scene_projection.cpp: FootPrint"]}
{"id": "C106", "title": "From a mesh to the heights of its footprint", "statement": "The footprint of a building made from a mesh of flat faces has, over every point of the ground on no edge, the height of the highest face of the mesh above this point, and the height 0 where there is none; it has the name of the mesh and the reference point and the EPSG code given.", "quantifier": "all meshes whose faces form an oriented surface (closed or open, faces given in either direction, floors included), all reference points and codes, all points of the ground on no edge, all libraries that obey the laws", "why_tests_cant": "a test compares a few points over one building; which corner a face begins at, the direction of the faces and their order are chosen by the library", "anchors": ["src/lib/projection/utilities.cpp: trace, orthoprint", "src/lib/projection/scene_projection.cpp: FootPrint::FootPrint(UNode)", "src/lib/projection/face_projection.cpp: FacePrint(Facet)", "src/lib/scene/unode.cpp: UNode(Mesh)"]}
{"id": "C107", "title": "From an OBJ file or a directory of OFF files to the vector files of its buildings", "statement": "orthoproject, given an OBJ file of flat-faced meshes with distinct names, or a directory of OFF files, and asked to save, ends with code 0 and leaves for every mesh that is not the terrain a vector file named after it, holding a footprint with over every point of the ground on no edge the height of the highest face of this mesh, and 0 where there is none.", "quantifier": "all OBJ texts, all command lines asking for vector files only, all file systems that hold the text and can be written to, all libraries that obey the laws, all points of the ground on no edge", "why_tests_cant": "the whole program is run from the text to the files; a test has one file, one set of options and one state of the disk", "anchors": ["src/bin/orthoproject.cpp: main", "src/lib/io/io_scene.cpp: SceneHandler::read", "src/lib/scene/unode.cpp: UNode(Mesh)", "src/lib/projection/scene_projection.cpp: FootPrint::FootPrint(UNode)"]}
{"id": "C108", "title": "cityformat there and back", "statement": "cityformat from an OBJ file to a directory of OFF files, and then from this directory to another OBJ file: both runs end with code 0, and the last file holds the objects of the first: the same names, and for each the same polygons in the same order, begun at any corner (the direction of the polygons of a closed object may be reversed, for all of them together); nothing else is in it except a terrain without polygons if there was none. Whoever reads the directory in between finds the same objects.", "quantifier": "all OBJ texts whose objects are oriented surfaces with distinct names that can be names of files and coordinates of at most six digits, all command lines that ask for these conversions, all file systems that can be written to, all orders of directory listings, all libraries that obey the laws", "why_tests_cant": "two runs of the program, a directory listing in any order, the choice of first corners by the library: a test has one of each", "anchors": ["src/bin/cityformat.cpp: main", "src/lib/io/io_scene.cpp: SceneHandler::read, SceneHandler::write", "src/lib/scene/unode.cpp: UNode(Mesh)", "src/lib/shadow/mesh.cpp: Mesh(UNode)"]}
{"id": "C109", "title": "The order of a directory listing", "statement": "The order in which the system lists the directory of a scene does not change the outcome: orthoproject and cityformat (to OFF) end in the same way and leave the same disk, file for file and byte for byte.", "quantifier": "all directories, all pairs of orders in which the system may list them, all command lines, all file systems and libraries", "why_tests_cant": "a test runs on one file system, with the one order this system happens to use", "anchors": ["src/bin/orthoproject.cpp: main", "src/bin/cityformat.cpp: main", "src/lib/io/io_scene.cpp: SceneHandler::read", "src/lib/algorithms/scene_algorithms.cpp: orthoproject, save_building_prints"]}
{"id": "C110", "title": "From the faces of a mesh to the pixels of its image", "statement": "Projecting and rasterising a building in pixels of size p gives an image over the tightest box around the faces that are not vertical, with as many rows and columns as pixels are needed, anchored at the upper left corner of this box; every pixel counts the faces that have a point over its square, and its value is the mean of one height of each of these faces over the square, raised by the height of the reference point, and 0 if there is no face. orthoproject, asked for images, leaves exactly this image for every building of the scene.", "quantifier": "all meshes that form an oriented surface and whose faces do not overlap when seen from above, all positive pixel sizes, all pixels, all libraries that obey the laws, and for the program all command lines asking for images and all file systems that hold the input and can be written to", "why_tests_cant": "it ranges over all meshes, pixel sizes and pixels, and composes the surface builder, the projection, the occlusion and the rasterisation; a test compares one image", "anchors": ["src/lib/scene/unode.cpp: UNode(Mesh)", "src/lib/projection/scene_projection.cpp: FootPrint::FootPrint(UNode)", "src/lib/projection/raster_projection.cpp: RasterPrint::RasterPrint(FootPrint, double)", "src/lib/projection/face_projection.cpp: FacePrint::rasterize, FacePrint::get_height", "src/bin/orthoproject.cpp: main"]}
{"id": "C111", "title": "The command lines", "statement": "orthoproject accepts exactly the command lines that consist of the scene, then save, rasterize, both or none, an input format and some of the other options of the first line of its usage, none twice, in any order, as --name, --name=value or --name value, with names that may be shortened as long as only one option is meant; cityformat likewise with the scene, perhaps output, perhaps a path, or --formats alone. The program then works with exactly what has been typed, and 1 for a pixel size that is not given. Every other command line changes no file and gives the status 0 (help, version) or 255. From the words of the command line to the pictures and converted files, the result is the one the other properties describe. Every option that the help lists can be given.", "quantifier": "all command lines, that is all lists of words, all spellings and orders, all file systems", "why_tests_cant": "there are infinitely many command lines; the usage text is parsed at run time and a description below it can change the meaning of the lines above", "anchors": ["src/bin/orthoproject.cpp: USAGE, Arguments, main", "src/bin/cityformat.cpp: USAGE, Arguments, main"]}
{"id": "C112", "title": "Every building gets its files", "statement": "orthoproject save rasterize ends normally on every scene whose buildings have sound surfaces: each face vertical, or with a valid shadow and not too steep, one at least not vertical, and an image that is not too large. Then for every building there are a vector file with at least one face, an attribute file and a complete image of the demanded pixel size, with at least one pixel and not outside of the building. No condition is put on flatness, on the order of the faces or on faces one above another.", "quantifier": "all meshes, any number of buildings and faces, any overlaps and straight angles, all pixel sizes, all spellings of the command line", "why_tests_cant": "the first three corners of a facet, in the order in which the surface library happens to begin it, decide whether the face is kept; a single building without a kept face ends the whole run", "anchors": ["src/lib/projection/face_projection.cpp: FacePrint, is_perpendicular", "src/lib/projection/utilities.cpp: orthoprint", "src/lib/projection/raster_projection.cpp: RasterPrint", "src/bin/orthoproject.cpp: main"]}
{"id": "C113", "title": "The terminal tells what the tools do and how far they came", "statement": "Both tools show the settings as they were typed, then say when each step begins and when it is done: exactly the steps that were asked for, in their order. A run that ends well shows every step as done; a run that an exception ends shows the steps before as done, the failing one as begun, and the message of the exception is the last thing said. For OFF and OBJ files the standard error stream is empty if and only if the run ended well, which the exit status does not tell. What the settings announce is done.", "quantifier": "all command lines, states of the file system, scenes, and points at which an exception can end the run", "why_tests_cant": "the messages are spread over the bodies of functions with many exits; a test sees the output of one run, not that no early exit skips or repeats a message", "anchors": ["src/bin/orthoproject.cpp", "src/bin/cityformat.cpp", "src/lib/algorithms/scene_algorithms.cpp", "src/lib/io/io_scene.cpp"]}
{"id": "C114", "title": "Help, version and refused command lines", "statement": "--help, in any readable command line, shows the usage and nothing else, with status 0; --version shows the name of the tool and its version; every other command line that does not have the form of the usage gets a complaint on the standard error stream and the usage, with status 255. No file changes.", "quantifier": "all command lines", "why_tests_cant": "the command lines are unbounded; tests try a few", "anchors": ["src/bin/orthoproject.cpp", "src/bin/cityformat.cpp"]}
{"id": "C115", "title": "A step shown as done has left its files", "statement": "When the terminal shows a step of orthoproject as done, the files that the step makes are on the disk with their contents, and they are still there when the program ends, even if a later step fails. If the program ends and has said nothing on the standard error stream, every step that was asked for has been done and its files are on the disk.", "quantifier": "all command lines that are understood, scenes, formats and contents of the disk at the beginning", "why_tests_cant": "the failing step, the files that are already there and the names of the buildings range over an unbounded set of histories; tests see some failures, not every one", "anchors": ["src/bin/orthoproject.cpp", "src/lib/algorithms/scene_algorithms.cpp", "src/lib/io/io_vector.cpp", "src/lib/io/io_raster.cpp"]}
{"id": "C116", "title": "Converting a city before drawing it makes no difference", "statement": "Convert an OBJ file with cityformat to a directory of OFF files and draw the directory with orthoproject: the vector files and the images show the buildings of the OBJ file, with the heights that a direct drawing of the OBJ file shows.", "quantifier": "all OBJ files whose meshes can be converted and drawn, all choices of the geometry library where to begin a face, all directories and names", "why_tests_cant": "the two programs talk through files; where the library begins a face is not fixed, and shapes, names and orders of directory entries range over unbounded sets", "anchors": ["src/bin/cityformat.cpp", "src/bin/orthoproject.cpp", "src/lib/io/io_scene.cpp", "src/lib/scene/unode.cpp", "src/lib/shadow/mesh.cpp", "src/lib/projection/face_projection.cpp"]}
{"id": "C117", "title": "The tools look at nothing but the scene and the places of their results", "statement": "A run of orthoproject or cityformat depends on the arguments, on the scene (its file; for OFF its directory and the OFF files of it in the order the system lists them; for 3DS the file and the document beside it) and on what is at the places it may write, with the directory they are in. From two states of the disk that are the same at these places the run ends in the same way, prints the same, and leaves the same at all these places; the rest of the disk is neither read nor changed.", "quantifier": "all command lines and arguments, all pairs of states of the disk that are the same at the places named, all libraries", "why_tests_cant": "two whole disks must be compared for every possible content of the rest of the disk; a test has one disk", "anchors": ["src/bin/orthoproject.cpp", "src/bin/cityformat.cpp", "src/lib/io/io_scene.cpp", "src/lib/algorithms/scene_algorithms.cpp"]}
{"id": "C118", "title": "A batch of runs on separate scenes may be done in any order", "statement": "In a script of runs of orthoproject and cityformat of which none looks at a place another one may write, every run ends in the same way, prints the same and leaves the same files as if it were the only one, and so in any order. Runs are separate when the directories of their scenes and outputs are different and none is inside another; conversions without dual graphs are separate when their outputs are. Scenes in one directory are not: buildings of the same name overwrite each other.", "quantifier": "all scripts of any length, all orders, all states of the disk, all libraries", "why_tests_cant": "all permutations of scripts of any length on all disks", "anchors": ["src/bin/orthoproject.cpp", "src/bin/cityformat.cpp", "src/lib/algorithms/scene_algorithms.cpp", "src/lib/io/io_scene.cpp"]}
{"id": "C119", "title": "Running a tool again changes nothing", "statement": "A second run of orthoproject with the same arguments ends in the same way, prints the same and leaves every file as the first run left it, whatever the state of the disk before the first run and however it ended (success, exception in the middle, or stopped by undefined behaviour in the writer of images). For OBJ and 3DS scenes there is no condition; a directory of OFF files must not be named like one of the results. The same holds for cityformat if the scene is not among the places it writes and the output and dual_graphs are not inside each other.", "quantifier": "all arguments, all states of the disk, all scenes, any number of repetitions, all libraries", "why_tests_cant": "the state left by any first run, including those that fail half way, must be a fixed point of the second", "anchors": ["src/bin/orthoproject.cpp", "src/bin/cityformat.cpp", "src/lib/algorithms/scene_algorithms.cpp", "src/lib/io/io_scene.cpp"]}
{"id": "C120", "title": "Tools that run at the same time on separate scenes do not disturb each other", "statement": "Several runs of orthoproject and cityformat are started at the same time on scenes that are separate (no run looks at a place another one may change). Whatever the order in which the operating system lets them make their calls, at any moment each run is exactly where it would be if it were alone and had made as many calls: it has printed the same and has left the same at each place it may change. Each of them comes to its end; when all have, each one has ended and printed as alone, and the disk is what the runs leave one after the other in any order. Two scenes of one directory are not separate: a directory with a file of the one and a file of the other, which no order of the runs leaves, is possible.", "quantifier": "all arguments, all states of the disk, any number of runs, all schedules of their calls, all ways in which the contents of files arrive on the disk, all libraries", "why_tests_cant": "the schedules cannot be controlled by a test, and their number grows exponentially", "anchors": ["src/bin/orthoproject.cpp", "src/bin/cityformat.cpp", "src/lib/algorithms/scene_algorithms.cpp", "src/lib/io/io_scene.cpp"]}
{"id": "C121", "title": "A tool that was killed can be run again", "statement": "orthoproject or cityformat is killed at any call to the operating system, any number of times, and is then run to its end. The last run ends in the same way, prints the same and leaves exactly the same files as if the tool had never been killed, whatever was in the files that were being written at the time. A killed run leaves no litter: wherever there is something after it, the complete run leaves something of the same kind. For orthoproject on OBJ and 3DS scenes there is no condition; in the other cases the output must not overwrite the scene: a scene that is converted in its place is lost when the run is killed after its file was opened.", "quantifier": "all arguments, all states of the disk, all numbers of crashes and all crash points, all ways in which the contents of files arrive on the disk, all libraries", "why_tests_cant": "there is a crash point at every system call and in every file, and sequences of crashes multiply", "anchors": ["src/bin/orthoproject.cpp", "src/bin/cityformat.cpp", "src/lib/algorithms/scene_algorithms.cpp", "src/lib/io/io_scene.cpp", "src/lib/io/io_raster.cpp", "src/lib/io/io_vector.cpp"]}
{"id": "C122", "title": "A printed footprint tells all there is in it", "statement": "What os << footprint prints has, line by line, the name, the reference point, the EPSG code, the bounding box, the number of faces and for each face its identifier, border and plane, in this order; two footprints print the same text only if they have the same name, whatever characters are in it, the same code, the same identifiers in the same order, and coordinates that are written in the same way. Where different numbers are written differently only equal footprints print the same text.", "quantifier": "all pairs of footprints: any names, also names that look like the lines of the text, any number of faces, any borders with holes, planes and boxes; all ways of writing numbers in one word", "why_tests_cant": "names are free text, so that the text could be ambiguous for some name that no test tries; there are infinitely many pairs of footprints", "anchors": ["src/lib/projection/face_projection.cpp", "src/lib/projection/brick_projection.cpp", "src/lib/projection/scene_projection.cpp"]}
{"id": "C123", "title": "A conversion without complaint has been made", "statement": "If cityformat is asked for a conversion, ends, and has said nothing on the standard error stream, then every object of the scene is on the disk in the format that was asked for: in the directory <path> an OFF file with the name of each object and its text (the last one of those with the same name), or in the file <path> the OBJ text of all of them; and the dual graphs, if they were asked for, are on the disk too.", "quantifier": "all command lines that are understood, scenes, formats and contents of the disk at the beginning", "why_tests_cant": "whether a missing message can be trusted depends on every state of the disk and every scene: a directory in the place of a file, a missing directory, objects with the same name", "anchors": ["src/bin/cityformat.cpp", "src/lib/io/io_scene.cpp", "src/lib/io/io_off.cpp", "src/lib/io/io_obj.cpp"]}
{"id": "C124", "title": "Whoever reads a converted OBJ file finds every object", "statement": "If cityformat has converted a scene to an OBJ file, ends and has said nothing on the standard error stream, then whoever reads this file finds every object of the scene in it, under its name and with its polygons.", "quantifier": "all command lines that are understood, scenes whose objects the format can hold, with different names that can be names of files, and contents of the disk at the beginning", "why_tests_cant": "The claim joins the text written for every scene with the reader for every name; a test has a few names, usually of one word.", "anchors": ["src/bin/cityformat.cpp", "src/include/io/Obj_stream/obj_stream.h", "src/lib/io/io_scene.cpp"]}
{"id": "C125", "title": "A 3DS file held by a handler is released once", "statement": "A program may make, copy, assign, read, write and destroy 3DS handlers in any order: it never touches or releases a file that has been released, and when all its handlers are gone no 3DS file and no mesh of one is still allocated.", "quantifier": "all sequences of constructions, copies, assignments, reads, writes and destructions of any number of handlers, for all files and meshes with a defined conversion", "why_tests_cant": "A test runs one sequence; a double release shows only under a memory checker, and only for the sequence that was run.", "anchors": ["src/lib/io/io_3ds.cpp", "src/include/io/io_3ds.h", "src/lib/shadow/mesh.cpp", "src/lib/shadow/face.cpp"]}
{"id": "C126", "title": "Exports and imports give back the memory they take", "statement": "When a call of a handler of vector files or images is over, whether it returns or throws, everything it has allocated is released.", "quantifier": "all footprints and images, all answers of GDAL at each step, all contents of files, and all states of the memory before the call", "why_tests_cant": "Leaks do not change results: unit tests pass with them, and how much is lost depends on the data and on the step that fails.", "anchors": ["src/lib/projection/utilities.cpp", "src/lib/projection/brick_projection.cpp", "src/lib/projection/raster_projection.cpp", "src/lib/io/io_vector.cpp", "src/lib/io/io_raster.cpp"]}
{"id": "C127", "title": "Loss of power", "statement": "The power fails while orthoproject or cityformat runs, or after it has ended, any number of times, and the disk has lost any part of what was written: independently in each place a result may be missing, old, cut, or hold anything. Running the tool again ends in the same way, prints the same and leaves exactly the same files as if nothing had happened. The failure itself touches only places of results and leaves no file that the tool does not make.", "quantifier": "all command lines of both tools whose scene is not a place they write to, all contents of all files, every call at which the power fails, every choice of what each place of a result holds afterwards, any number of failures in a row, and any number of tools on separate scenes at the same time in every interleaving of their calls", "why_tests_cant": "A test cannot cut the power at every call, and the states of the disk that may follow are unbounded: what survives depends on the order in which the system wrote its caches.", "anchors": ["src/bin/orthoproject.cpp", "src/bin/cityformat.cpp", "src/lib/io/io_raster.cpp", "src/lib/io/io_vector.cpp", "src/lib/io/io_obj.cpp", "src/lib/io/io_off.cpp", "src/lib/io/io_scene.cpp"]}
{"id": "C128", "title": "Error messages", "statement": "An error message says what is wrong and with which file. When a file to be read does not exist the message contains its path as the user wrote it, so that different paths give different messages; a missing file, a forbidden mode and each kind of malformed content have messages of their own, and a message is given only when what it says is so.", "quantifier": "all paths and spellings of paths, all modes, all states of the file system, all texts of OFF and OBJ files, all names of formats, all sizes of images and faces", "why_tests_cant": "A test sees the message of one bad input; that a message is given for exactly the inputs it describes is a statement on all texts.", "anchors": ["src/include/io/Off_stream/off_stream.h", "src/include/io/Obj_stream/obj_stream.h", "src/lib/io/io_off.cpp", "src/lib/io/io_obj.cpp", "src/lib/io/io_3ds.cpp", "src/lib/io/io_vector.cpp", "src/lib/io/io_raster.cpp", "src/lib/io/io_scene.cpp", "src/lib/io/io_scene_tree.cpp", "src/lib/projection/face_projection.cpp"]}
