import json
P=[]
def p(id,title,statement,quantifier,why,anchors):
    P.append(dict(id=id,title=title,statement=statement,quantifier=quantifier,why_tests_cant=why,anchors=anchors))
S="src/lib/shadow/"; I="src/include/"; IO="src/lib/io/"; PR="src/lib/projection/"; AL="src/lib/algorithms/"
p("C01","Cross product, dot product and determinant obey the vector laws",
 "For all vectors a, b, c (exact arithmetic): a^b = -(b^a), a^a = 0, (a^b)*a = (a^b)*b = 0, ^ is bilinear, determinant(a,b,c) = (a^b)*c, is alternating, and (point + (q - point)) = q, so that orientation tests built on them are consistent.",
 "all triples of vectors / points with exact (rational or real) coordinates","infinitely many coordinates; tests sample a few",
 [S+"vector.cpp: operator ^=, operator *, determinant",S+"point.cpp: operator +, operator -"])
p("C02","normal_to returns a unit normal of the triangle",
 "For every three non collinear points, normal_to(a,b,c) has L2 norm 1, is orthogonal to b-a and c-b, and is the opposite of normal_to(c,b,a); for collinear points the division is by a zero norm.",
 "all triples of points with real coordinates","infinitely many triples",[S+"point.cpp: normal_to",S+"vector.cpp: norm_L2"])
p("C03","Bounding-box union is a semilattice join with the empty box as identity",
 "For boxes without NaN, b1 + b2 is commutative, associative and idempotent, Bbox() is neutral, and b1 + b2 is the least box containing both. With NaN, a NaN of the right operand is ignored and a NaN of the left one sticks.",
 "all boxes over the extended doubles","the domain is all doubles, including infinities and NaN",[S+"bbox.cpp: Bbox::operator +=, operator +, Bbox::Bbox(void)"])
p("C04","A mesh built from points reports the tightest box around them",
 "After every construction of a Mesh from a list of points, bbox() contains each point and every box containing all the points contains it, whatever the order of the points; for no points it is the empty box.",
 "all finite lists of points","lists of every length and order",[S+"mesh.cpp: Mesh::compute_bbox, Mesh::Mesh, Mesh::bbox"])
p("C05","A Face has at least three vertices",
 "The list constructors of Face succeed exactly on lists of at least 3 indexes and then store them unchanged; shorter lists throw logic_error; the three index constructor yields (a,b,c) or (a,c,b).",
 "all index lists","lists of every length",[S+"face.cpp: Face::Face"])
p("C06","Inverting the orientation of a face reverses its boundary",
 "On every non empty face invert_orientation keeps the first vertex and the multiset of vertices, reverses every directed boundary edge, and applying it twice gives back the same face.",
 "all non empty faces","faces of every degree",[S+"face.cpp: Face::invert_orientation"])
p("C07","Rotating a face only changes its starting vertex",
 "rotate() keeps the directed boundary edges (as a cycle), rotate(m) after rotate(n) is rotate(m+n) modulo the degree, rotating degree() times is the identity, and every rotation of a face with distinct vertices is == to the face.",
 "all faces and all rotation counts in range","unbounded degrees and counts",[S+"face.cpp: Face::rotate"])
p("C08","Face equality is equality of cyclic vertex sequences",
 "== on faces is an equivalence relation that holds exactly when one index sequence is a rotation of the other, and != is its negation.",
 "all pairs and triples of faces","relation laws quantify over all pairs and triples",[S+"face.cpp: operator==, operator!="])
p("C09","is_convex decides convexity of planar faces",
 "For a face whose vertices lie in a plane, is_convex(coordinates) is true exactly when the polygon is strictly convex; the answer depends neither on the starting vertex nor on the orientation nor on translations of the coordinates; it throws out_of_range exactly when an index or the size is out of range.",
 "all faces and coordinate lists","all degrees and positions",[S+"face.cpp: Face::is_convex"])
p("C10","Triangulating a convex face for 3DS preserves it",
 "For a convex face of degree n whose indexes fit in the 16 bits of the format (C17 is about larger meshes), to_3ds yields exactly n-2 triangles whose vertices are vertices of the face, whose vector areas add up to that of the face, in which every boundary edge occurs once and every inner edge occurs in both directions; otherwise logic_error (or out_of_range) is thrown.",
 "all faces and coordinate lists","all degrees",[S+"face.cpp: Face::to_3ds"])
p("C11","Index rewriting on faces",
 "offset(d) adds d to every index and offsets compose; overide(i,j) returns true iff i occurs and then changes exactly the first occurrence of i, leaving degree and other indexes unchanged.",
 "all faces, indexes and offsets","unbounded",[S+"face.cpp: Face::offset, Face::find, Face::overide"])
p("C12","Mesh concatenation keeps every face on its own geometry",
 "For valid meshes a, b, (a + b) has points_size and faces_size the sums, its faces seen as coordinate polygons are those of a followed by those of b, and all its indexes are valid; concatenating any list of valid meshes yields a valid mesh with all polygons in order.",
 "all pairs and all finite lists of valid meshes","sizes and list lengths unbounded",[S+"mesh.cpp: Mesh::operator +=, operator +",S+"face.cpp: Face::offset"])
p("C13","Mesh concatenation is associative with the empty mesh as identity",
 "(a+b)+c and a+(b+c) have the same points and faces, and the same name exactly when a has no points or b has some (with points in a and none in b the left sum keeps the name of b and the right one drops it); both are == for faces without repeated indexes, and Mesh() is a left and right identity up to == (on the right of a non-empty mesh it adds an underscore to the name).",
 "all triples of meshes","unbounded",[S+"mesh.cpp: Mesh::operator +=, operator =, is_empty"])
p("C14","The bounding box of a sum of meshes encloses all its points",
 "After any sequence of += the bounding box of the resulting mesh is the tight box of all its points.",
 "all sequences of concatenations, including those starting from Mesh()","history property",[S+"mesh.cpp: Mesh::operator =, Mesh::operator +=, bbox"])
p("C15","Mesh equality is an equivalence relation",
 "== on meshes is reflexive, symmetric and transitive, ignores the name, and means same points in order and faces pairwise equal up to rotation.",
 "all meshes","relation laws",[S+"mesh.cpp: operator ==, operator !="])
p("C16","A mesh survives the trip to the 3DS representation and back",
 "Mesh(m.to_3ds()) has the points of m and, face by face, the triangles of m with the same orientation.",
 "all meshes","all face degrees and degenerate triangles",[S+"mesh.cpp: Mesh::to_3ds, Mesh::Mesh(Lib3dsMesh*)",S+"face.cpp: Face::to_3ds"])
p("C17","3DS conversion respects the 16 bit format limits",
 "to_3ds never writes outside the structures it allocates and never changes an index silently, for every mesh.",
 "all meshes, of any size and name","needs more than 65535 points / memory error detection",[S+"mesh.cpp: Mesh::to_3ds",S+"face.cpp: Face::to_3ds"])
p("C18","Writing a mesh to OFF and reading it back gives the same mesh",
 "For every mesh with valid faces, reading what Off_stream wrote gives a mesh with the same faces and the same number of points, and with the same coordinates whenever they have at most six significant decimal digits.",
 "all meshes and all names without line breaks","unbounded sizes and values",[I+"io/Off_stream/off_stream.h: operator <<, operator >>",IO+"io_off.cpp"])
p("C19","The OFF reader handles every text: mesh or exception",
 "For every input text, reading from an Off_stream either returns a mesh or throws a documented exception, without undefined behaviour.",
 "all finite texts","all strings",[I+"io/Off_stream/off_stream.h: operator >>, parse, read_header, read_points, read_faces"])
p("C20","The OFF reader ignores comment lines and blank lines",
 "Inserting or removing lines starting with '#' or empty lines anywhere in the text does not change what Off_stream reads.",
 "all texts and all insertion positions","all strings and positions",[I+"io/Off_stream/off_stream.h: parse"])
p("C21","An OFF file that is accepted has exactly the declared content",
 "If reading succeeds, the mesh has exactly the numbers of points and faces of the size line, every face has the declared degree (at least 3), and every face index refers to a read point.",
 "all texts on which reading succeeds","all strings",[I+"io/Off_stream/off_stream.h: read_header, read_points, read_faces"])
p("C22","Coordinates written by the text formats lose at most half a unit of the sixth digit, once",
 "For every coordinate x the value read back differs from x by at most 5e-6*|x| relative, is exactly x when x has at most six significant digits, keeps sign and order (monotone), and a second write/read changes nothing.",
 "all finite coordinates","all reals",[S+"point.cpp: operator <<",I+"io/Off_stream/off_stream.h: print_points, read_points",I+"io/Obj_stream/obj_stream.h"])
p("C23","Writing meshes to OBJ and reading them back keeps every polygon",
 "For every non empty list of meshes with valid faces and distinct one-word names, reading what Obj_stream wrote yields one mesh per name, ordered by name, whose faces visit the same coordinates in the same order.",
 "all lists of meshes","unbounded lists",[I+"io/Obj_stream/obj_stream.h: operator <<, operator >>"])
p("C24","OBJ reading canonicalises: a second round trip changes nothing",
 "Meshes obtained by reading an OBJ text are unchanged (points, faces, names, order) by writing them and reading them again.",
 "all OBJ texts accepted by the reader","all texts",[I+"io/Obj_stream/obj_stream.h"])
p("C25","Meshes read from OBJ are compact and index-valid",
 "Each mesh read from an OBJ text contains only points referenced by its faces, each vertex of the file at most once, and every face index is valid.",
 "all OBJ texts accepted","all texts",[I+"io/Obj_stream/obj_stream.h: read_facet, read_object",AL+"io_algorithms.cpp: select"])
p("C26","The OBJ reader handles every text: meshes or exception",
 "For every input text, reading from an Obj_stream either returns meshes or throws, without undefined behaviour.",
 "all finite texts","all strings",[I+"io/Obj_stream/obj_stream.h: operator >>",AL+"io_algorithms.cpp: str2pt, select"])
p("C27","OBJ output indexes point to the right vertex lines",
 "In the text written for a list of meshes, the k-th index of a face of mesh m is the 1-based number of the v-line of the point it denotes, for every mesh in the list; the empty list is written as well.",
 "all lists of meshes","unbounded lists",[I+"io/Obj_stream/obj_stream.h: operator <<, print_mesh_faces"])
p("C28","Handlers never touch a file in a mode they were not opened for",
 "Every read operation of a handler not opened for reading throws before any file access, and every write operation of a handler not opened for writing throws and leaves the file system unchanged.",
 "all handlers, modes, paths and file system states","all states",[IO+"io_off.cpp",IO+"io_obj.cpp",IO+"io_3ds.cpp",IO+"io_vector.cpp",IO+"io_raster.cpp",IO+"io_scene_tree.cpp"])
p("C29","Reading an OBJ scene separates the terrain from the buildings without loss",
 "Reading with an excluded name returns as buildings exactly the objects with another name, in order, and as terrain the concatenation of those with that name, renamed; no polygon is lost or duplicated.",
 "all object lists and all names","all lists",[IO+"io_obj.cpp: WaveObjHandler::read, exclude_mesh, get_scene"])
p("C30","Writing a scene to a directory of OFF files and reading it back gives the same scene",
 "For every scene with distinct valid building names and a terrain, the OFF directory written by SceneHandler is read back as the same buildings and terrain.",
 "all scenes","all scenes and directory contents",[IO+"io_scene.cpp: write, read, get_off_scene",IO+"io_off.cpp"])
p("C31","Scene formats are resolved totally and consistently",
 "A SceneHandler for format f and path p is created only if f is one of the four supported formats and the extension of p matches that format (OFF excepted: a directory); any other format throws.",
 "all format strings and paths","all strings",[IO+"io_scene.cpp: SceneHandler::SceneHandler, check_extension"])
p("C32","A 3DS handler is opened in exactly one mode",
 "Constructing a T3DSHandler succeeds only with exactly one of read and write requested, and reading requires the file to exist.",
 "all mode maps and file system states","all maps",[IO+"io_3ds.cpp: T3DSHandler::T3DSHandler"])
p("C33","get_nodes(level) lists the nodes at the given depth of the scene graph",
 "For every 3DS node forest and every level the handler returns exactly the nodes at that depth.",
 "all forests and levels","unbounded trees",[IO+"io_3ds.cpp: get_nodes, level_meshes"])
p("C34","Meshes of a named node are returned exactly",
 "Asking for the meshes under a node name returns one mesh per matching node of its subtree and nothing else.",
 "all forests, names and type sets","unbounded trees",[IO+"io_3ds.cpp: node_meshes, meshes"])
p("C35","Collecting by type visits every node of the subtree once",
 "The recursive collection returns, in post-order, the meshes of exactly those nodes of the subtree whose mesh exists and whose name starts with one of the type letters.",
 "all forests","unbounded trees",[IO+"io_3ds.cpp: node_meshes, mesh_by_type"])
p("C36","The scene tree supplies pivot, EPSG code and building identifiers",
 "Reading a scene tree returns the declared pivot (or the centre of the declared bounding box), the declared EPSG code, and the identifiers of the buildings in document order.",
 "all documents","all documents",[IO+"io_scene_tree.cpp"])
p("C37","Plane heights lie on the plane of the face",
 "For every face print with a non vertical plane, (x, y, get_plane_height(x,y)) satisfies the plane equation, and it is the only such height; for a vertical plane overflow_error is thrown.",
 "all planes and query points","all coordinates",[PR+"face_projection.cpp: get_plane_height"])
p("C38","Projected faces are stored counterclockwise with their plane",
 "The face print of a facet has the (x,y) of the facet's vertices as outer border, counterclockwise when simple, and all facet vertices satisfy the stored plane.",
 "all facets","all facets",[PR+"face_projection.cpp: FacePrint::FacePrint(Polyhedron::Facet)"])
p("C39","The area of a face print is the area of its region",
 "area() is the outer area minus the area of the holes; it is invariant under rotation of the vertex list and translation.",
 "all polygons with holes","all polygons",[PR+"face_projection.cpp: area"])
p("C40","get_height is the plane height inside and zero outside",
 "get_height(p) is the plane height for every p inside the border, zero for every p outside, for every non degenerate face print.",
 "all face prints and points","all points",[PR+"face_projection.cpp: get_height, contains"])
p("C41","Face print equality is an equivalence relation",
 "== on face prints is an equivalence relation, compares border and plane, ignores the identifier.",
 "all face prints","relation laws",[PR+"face_projection.cpp: operator ==, equal_border, has_same_plane"])
p("C42","Vector export keeps the geometry",
 "Exporting a face print to a vector feature with a reference point translates the border by the reference and stores the plane translated by it, and importing such a feature gives the translated border back.",
 "all face prints and reference points","all coordinates",[PR+"face_projection.cpp: to_ogr, FacePrint(OGRFeature*)",PR+"utilities.cpp: to_ogr, get_ogr_ring"])
p("C43","Orthographic projection keeps exactly the non vertical facets",
 "orthoprint returns, in facet order, one face print per facet that is neither empty nor degenerate, with the facet identifier.",
 "all surfaces","all surfaces",[PR+"utilities.cpp: orthoprint"])
p("C44","Inserting a face never loses covered ground",
 "After inserting a face into a brick print, the region covered by the brick is the union of the region covered before and the face's region.",
 "all brick prints and faces","all configurations",[PR+"brick_projection.cpp: operator +=, occlusion"])
p("C45","Faces of a brick print do not overlap",
 "After any sequence of insertions the interiors of the faces in a brick print are pairwise disjoint.",
 "all insertion sequences","history property",[PR+"brick_projection.cpp: operator +=, occlusion"])
p("C46","A brick print is the upper envelope of the inserted faces",
 "At every covered ground point the height of the brick print is the maximum of the heights of the inserted faces containing the point.",
 "all insertion sequences and points","history property over all points",[PR+"brick_projection.cpp: operator +=, occlusion, is_under, get_height"])
p("C47","Brick print insertion is order independent",
 "Inserting the same faces in any order gives a brick print with the same covered region.",
 "all permutations of insertion sequences","all permutations",[PR+"brick_projection.cpp: operator +="])
p("C48","Brick print equality is equality of the sets of faces",
 "== on brick prints holds exactly when one list of faces is a permutation of the other (up to face equality), and is an equivalence relation.",
 "all brick prints","relation laws",[PR+"brick_projection.cpp: operator =="])
p("C49","Filtering and bounding boxes of brick prints",
 "filter removes exactly the empty and degenerate faces, keeping order; the bounding box of a brick only grows and contains every inserted face, whether or not the face is hidden.",
 "all insertion sequences","history property",[PR+"brick_projection.cpp: filter, operator +="])
p("C50","Footprints with different references are never merged",
 "FootPrint += throws when the left side is not empty and reference or EPSG differ, leaving it unchanged; otherwise the result has the union of faces and the common reference.",
 "all pairs and sequences of footprints","history property",[PR+"scene_projection.cpp: operator +="])
p("C51","Rasterising never writes outside the image",
 "For every footprint whose faces lie in its bounding box and every positive pixel size for which the image size fits in 64 bits, rasterising succeeds and each face writes only pixels inside the image, each at its row and column; a pixel size of zero is undefined.",
 "all boxes, faces, pixel sizes; all doubles","all reals and doubles: floor, ceil and rounding corner cases",[PR+"face_projection.cpp: rasterize",PR+"raster_projection.cpp: RasterPrint::RasterPrint"])
p("C52","A pixel is the mean of the heights of the faces that meet it",
 "After rasterising a footprint the hit count of each pixel is the number of faces that meet the square of this pixel, and its value is the reference height plus the mean of one height per such face, each between the extreme heights of that face over the pixel; 0 if no face meets it.",
 "all lists of faces and all pixels","history property",[PR+"face_projection.cpp: rasterize"])
p("C53","Pixel access is bounds checked",
 "at(i,j) returns the pixel in row i and column j when i < height and j < width, and throws otherwise.",
 "all images and indexes","all indexes",[PR+"raster_projection.cpp: at, hit"])
p("C54","Vertical offset is applied once, to hit pixels only",
 "vertical_offset adds the reference height to exactly the pixels with hits, and calling it any number of times equals calling it once.",
 "all images and call counts","history property",[PR+"raster_projection.cpp: vertical_offset"])
p("C55","Raster equality compares the images",
 "== on raster prints holds exactly when size, reference, pixel size and all pixel values agree.",
 "all pairs of images","relation",[PR+"raster_projection.cpp: operator =="])
p("C56","A raster print survives export to a GDAL dataset and import",
 "Reading a dataset written from a raster print gives the same size, pixel size, reference point, EPSG code and pixel values; a dataset without square upright pixels is refused.",
 "all images","all images",[PR+"raster_projection.cpp: to_gdal, RasterPrint(GDALDataset*)"])
p("C57","Facet adjacency is a symmetric relation",
 "The facet adjacency matrix of every closed or open surface is n x n, symmetric, and has 1 on the diagonal and exactly for the pairs of facets sharing an edge.",
 "all half-edge surfaces","all surfaces",["src/lib/scene/unode.cpp: facet_adjacency_matrix"])
p("C58","Facets are numbered 0..n-1",
 "After construction, and again after set_face_ids or prune, the facet identifiers are exactly 0..n-1 in facet order, hence distinct.",
 "all surfaces","all surfaces",["src/lib/scene/unode.cpp: set_face_ids"])
p("C59","Pruning merges only coplanar faces and terminates",
 "prune terminates, joins two faces only if they are coplanar with the same orientation, and leaves no joinable pair.",
 "all surfaces","termination and history",["src/lib/scene/unode.cpp: prunable, combinable",AL+"unode_algorithms.cpp: prune"])
p("C60","Affine transforms of a node act on all points and compose",
 "translate, scale, rotate and affine_transform map each vertex by the stated map, leave faces unchanged, translations compose additively and are undone by the opposite one, rotations preserve distances.",
 "all surfaces and parameters","all coordinates",["src/lib/scene/unode.cpp: affine_transform",AL+"unode_algorithms.cpp: translate, scale, rotate"])
p("C61","The bounding box of a node follows its geometry",
 "bbox() of a node is the tight box of its current points after any sequence of transformations.",
 "all transformation sequences","history property",["src/lib/scene/unode.cpp: bbox, affine_transform"])
p("C62","extrem_points and check_collinearity are correct",
 "check_collinearity holds exactly when all points are on a line; extrem_points returns two points of the list between which all the collinear points lie.",
 "all circuits of points","all lists",[AL+"util_algorithms.cpp: check_collinearity, extrem_points"])
p("C63","The centroid of a facet is its centre of gravity",
 "centroid(facet) is the centre of gravity of the facet: for a triangle the mean of its corners; hence it lies in the facet and moves with translations. The centroid of a polygon of the plane used by the rasteriser is the mean of its distinct vertices. area(unode) of a triangulated surface is the sum of the areas of its triangles and is multiplied by c² when all distances are multiplied by c.",
 "all surfaces and facets","all coordinates",["src/lib/scene/unode.cpp: centroid"])
p("C64","The circumference is the sum of edge lengths",
 "circumference of a facet is the sum of its edge lengths, is independent of the starting edge and invariant under translation; total_edge_length is the sum of the lengths of the edges, each counted once.",
 "all facets","all coordinates",["src/lib/scene/unode.cpp: circumference, edge lengths"])
p("C65","The adjacency stream prints exactly an n by n matrix",
 "Writing a vector of booleans of size n*n prints n lines of n entries which determine the vector; any other size throws logic_error.",
 "all vectors","all sizes",[I+"io/Adjacency_stream/adjacency_stream.h"])
p("C66","Projecting a scene yields one footprint per object",
 "orthoproject returns one footprint per building in order, plus the terrain if requested, all with the scene's pivot and EPSG code; so they can be summed. Pruning a scene prunes each building and, if requested, the terrain; rasterize_scene gives one image per footprint, in order.",
 "all scenes","all scenes",[AL+"scene_algorithms.cpp: orthoproject"])
p("C67","Command line tools act only on what was requested",
 "The tools rasterise only when a pixel size is given, write only the requested outputs, and report failure through the exit status.",
 "all argument combinations and failures","all combinations",["src/bin/orthoproject.cpp","src/bin/cityformat.cpp"])
p("C68","Saving the objects of a scene writes one file per object",
 "save_building_duals, save_building_prints and save_building_rasters leave each object's content in the file with its name and touch nothing else.",
 "all scenes, names and file system states","all names and states",[AL+"scene_algorithms.cpp: save_building_duals, save_building_prints, save_building_rasters"])
p("C69","Writing a raster or vector file succeeds or throws",
 "VectorHandler::write and RasterHandler::write either write exactly the given file, or throw and leave all files unchanged.",
 "all modes, paths, images, footprints and file system states","all failure points",["src/lib/io/io_raster.cpp: RasterHandler::write","src/lib/io/io_vector.cpp: VectorHandler::write"])
p("C70","Raster and vector files written by the library can be read by any process",
 "A file written by RasterHandler or VectorHandler is read back, whatever the process did before, with the name of the file and the content written; without the read mode, for a missing or unreadable file, read throws.",
 "all histories of the process, all images and footprints","history property",["src/lib/io/io_raster.cpp: RasterHandler::read","src/lib/io/io_vector.cpp: VectorHandler::read"])
p("C71","Measures of a footprint",
 "The area of a footprint is the sum of the areas of its faces; its circumference is the length of the boundary of the union of its faces.",
 "all footprints","all geometries",[PR+"brick_projection.cpp: areas, area, edge_lengths, circumference"])
p("C72","A node becomes a mesh facet by facet",
 "Mesh(node) has the name of the node, its vertices in order rounded to doubles, and one face per facet, in order, listing the positions of the corners along the boundary; all indexes are valid, every face has three corners at least, the box is tight; a closed node gives a mesh without border.",
 "all valid surfaces, closed or not, all roundings","all surfaces",["src/lib/shadow/mesh.cpp: Mesh::Mesh(name, polyhedron), Mesh::Mesh(unode)","src/lib/shadow/face.cpp: Face::Face(facet, points_index)"])
p("C73","A mesh survives the trip to a node and back",
 "UNode(mesh) carries the name, the points and the faces of a mesh that is an oriented surface; converted back, points and faces are the same up to the first corner of each face, except that all faces are turned when the surface is closed and not outward oriented. A second trip changes nothing.",
 "all meshes whose faces form an oriented surface","all surfaces",["src/lib/scene/unode.cpp: UNode::UNode(mesh, ...), UNode::UNode(building_id, points, polygons, ...)","src/lib/shadow/mesh.cpp: get_cgal_points, get_cgal_faces"])
p("C74","The edges between coplanar facets are found",
 "combinable(facet) lists the half-edges opposite to the edges across which the neighbour is coplanar with the facet, and no others; pruning_halfedges lists every edge between coplanar facets exactly once.",
 "all valid surfaces with plane facets","all surfaces",["src/lib/scene/unode.cpp: combinable, pruning_halfedges"])
p("C75","border_length is the length of the border",
 "border_length returns the sum of the lengths of the border edges of the surface, zero for a closed one.",
 "all valid surfaces, open or closed","all surfaces",["src/lib/algorithms/unode_algorithms.cpp: border_length"])
p("C76","Objects are values",
 "Copying, moving, assigning and swapping objects of every class of the library gives each object the value the history says: a copy equals its source, assignment and swap work when both operands are the same object, and no other object changes.",
 "all histories of constructions, copies, moves, assignments and swaps, over any objects of any class, with any aliasing","all histories and aliasings",
 ["src/lib/shadow/*.cpp, src/lib/scene/*.cpp, src/lib/projection/*.cpp: copy and move constructors, operator =, swap"])
p("C77","Compound assignments work on the same object",
 "a op= b gives a the result of the operation on the two values and changes nothing else, also when a and b are the same object; the binary operators change neither operand.",
 "all vectors, boxes, meshes, brick prints and footprints, the same object on both sides included","all values and aliasings",
 ["src/lib/shadow/vector.cpp: operator ^=","src/lib/shadow/mesh.cpp: operator +=","src/lib/projection/brick_projection.cpp: operator +=","src/lib/projection/scene_projection.cpp: operator +=, operator +"])
p("C78","Point queries on a footprint agree",
 "contains and get_height of a brick print give the same answer for a point of doubles and for the same exact point; a contained point is in_domain and in one of the inserted faces, and a point that is not contained has the height 0.",
 "all brick prints, all histories of insertions, all points","all points and all shapes",
 ["src/lib/projection/face_projection.cpp: get_height, contains","src/lib/projection/brick_projection.cpp: get_height, contains, in_domain"])
p("C79","Printing a raster shows the whole image and leaves the stream alone",
 "operator << writes the metadata and then every pixel once, row by row, as nested lists with six decimals, and leaves the format of the stream as it was.",
 "all raster prints and all streams","all image sizes, contents and stream states",
 ["src/lib/projection/raster_projection.cpp: operator <<"])
p("C80","A camera is what its parameters say",
 "The constructors of a camera give the name and position passed, the calibration (x, y) -> (f sx x + cx, f sy y + cy) and an orientation that is the composition of the given rotations; without rotations the orientation is the identity and the focal-distance constructor is the scale-factor constructor with factors 1.",
 "all focal distances, factors, principal points, positions and lists of rotations","all real parameters and lists of rotations",
 ["src/lib/projection/camera.cpp: Camera::Camera (all constructors)","src/lib/scene/affine_transformations.cpp: rotation_transform"])
p("C81","A text in OFF or OBJ notation is read as what it says",
 "Reading an OFF or OBJ text gives exactly the points, faces and objects the text describes in the notation of the format, whatever the blanks between the words, the signs, fractions and exponents of the numbers, the comments and the end of the last line; Windows line ends change nothing.",
 "all texts of the two notations, with any spacing, number notation and comments, and all roundings","all texts of a grammar",
 ["src/include/io/Off_stream/off_stream.h: operator >>", "src/include/io/Obj_stream/obj_stream.h: operator >>", "src/include/io/Line/line.h: readlines", "src/lib/algorithms/io_algorithms.cpp: line2pt, str2pt"])
p("C82","A write that returns has written",
 "When OFFHandler::write or WaveObjHandler::write returns, the file holds the text of the meshes and no other file has changed; otherwise it throws and nothing has changed.",
 "all meshes, paths, modes and states of the file system","the file system may be in any state: missing directories, a directory in place of the file, an existing file",
 ["src/lib/io/io_off.cpp:53-68 OFFHandler::write", "src/lib/io/io_obj.cpp:66-81 WaveObjHandler::write"])
p("C83","A handler of OBJ files holds the meshes its history says",
 "After any sequence of read, add_mesh, exclude_mesh and write, data() are the meshes of the last successful read (or of the construction) without those of excluded names, then those added and not excluded later, in order; no polygon is lost between data() and the meshes returned by exclude_mesh; only the file of the handler changes; write stores the meshes held.",
 "all histories of calls, all meshes, modes and states of the file system","histories are unbounded and mix failing and succeeding calls",
 ["src/include/io/io_obj.h:14-37 WaveObjHandler", "src/lib/io/io_obj.cpp:12-117"])
p("C84","A 3DS scene is read object by object",
 "Reading a scene from a 3DS file gives one building per node below the top node (format 3DS) or per building listed in the XML document (format 3DS XML), in order, with the name of the node and all the polygons of its facade and roof parts, a terrain with all the polygons of the terrain parts, and the position and code of the document; what cannot be read throws.",
 "all files loaded by lib3ds (any forest of nodes, any meshes), all documents, modes and states of the file system","node forests have any depth and any names; documents may miss anything",
 ["src/lib/io/io_scene.cpp:44-118 SceneHandler::read", "src/lib/io/io_3ds.cpp:49-88 T3DSHandler::get_scene", "src/lib/io/io_3ds.cpp:113-137 level_meshes, level_terrain"])
p("C85","A scene survives an OBJ file",
 "A scene written in OBJ format and read again from the file has the same buildings and terrain: same names and polygons, coordinates as printed. No other file changes.",
 "every scene whose meshes can be written (finite coordinates, faces of at least three existing points, distinct one-word names), every file system and writable path, all modes, every conversion of decimals exact up to 2^53","Needs all scenes, names and file systems; the order of names and the name of the terrain matter.",
 ["src/lib/io/io_scene.cpp: SceneHandler::read, SceneHandler::write", "src/lib/io/io_obj.cpp: WaveObjHandler(path, modes, scene), get_scene, exclude_mesh"])
p("C86","The tools make what their options ask for",
 "When everything requested can be computed and written, cityformat leaves the converted scene at <path> (one OFF file per object with its name, or one OBJ file with all of them), and orthoproject leaves the dual graphs (--graphs), the shape file (with or without labels) and attributes of every footprint, the shape file of the scene (--scene), and images of the requested pixel size; each option has its own effect and no output overwrites another one.",
 "every command line, file system, scene, library behaviour and result of the projections","Needs all combinations of options, scenes, names and states of the disk.",
 ["src/bin/orthoproject.cpp: Arguments, main", "src/bin/cityformat.cpp: Arguments, main", "src/lib/algorithms/scene_algorithms.cpp"])
p("C87","A node made of several meshes is their union",
 "UNode(name, meshes, reference, epsg) for closed meshes gives a node whose closed surface encloses a point exactly when one of the meshes, made a node alone, encloses it; the order and repetition of the meshes do not matter; holes of open meshes are closed first; the name, reference point and EPSG code are the given ones and the box is that of the points.",
 "all lists of meshes, all points of space, all libraries of Nef polyhedra that obey the stated laws","There are infinitely many lists of meshes and points; tests only look at a few files.",
 ["src/lib/scene/unode.cpp: UNode::UNode(std::string const&, std::vector<shadow::Mesh> const&, ...)"])
p("C88","Vector arithmetic on doubles",
 "With the doubles the code computes with, moving a point p by q - p leads to q, translations compose, a ^ a is zero and a ^ b is orthogonal to a; sums and scalar products commute, differences and cross products change sign when the operands are exchanged.",
 "all finite doubles as coordinates (all doubles for the symmetry laws), every order in which valarray::sum may add","Rounding depends on the values; a test tries a few, usually small integers for which nothing is rounded.",
 ["src/lib/shadow/vector.cpp: operators, determinant", "src/lib/shadow/point.cpp: operators"])
p("C89","normal_to on doubles",
 "With the doubles the code computes with, normal_to(a, b, c) is not a number exactly for collinear points, and otherwise a unit normal of the triangle up to rounding; reversing the triangle reverses the normal.",
 "all finite doubles as coordinates (all doubles for the reversal), every order in which valarray::sum may add","Cancellation, overflow and underflow happen for particular coordinates only; a test tries a few triangles.",
 ["src/lib/shadow/point.cpp: normal_to", "src/lib/shadow/vector.cpp: operator^, norm_L2, operator/"])
p("C90","is_convex on doubles",
 "With the doubles the code computes with, is_convex gives on planar faces the answer of exact arithmetic (C09), never has undefined behaviour, throws out_of_range exactly for missing coordinates or fewer than three vertices, accepts triangles and refuses larger faces with a vertex that is not a number.",
 "all faces, all finite doubles as coordinates (all doubles for the errors and NaN), every order in which valarray::sum may add","Whether rounding changes the sign of a turn depends on the coordinates; a test tries a few polygons.",
 ["src/lib/shadow/face.cpp: Face::is_convex", "src/lib/shadow/vector.cpp: operator^, operator*"])
p("C91","3DS round trip of a mesh with doubles and floats",
 "Converting a mesh of triangles that are not flat, with finite double coordinates, to a 3DS mesh and reading that back gives the same mesh: same name, same points, same triangles with the same orientation.",
 "all meshes with double coordinates that fit the format, and all orders in which the standard library may sum three numbers","the values are rounded to single precision and the orientation is decided by a rounded determinant compared to an epsilon: which coordinates and triangles survive depends on all the digits",
 ["src/lib/shadow/mesh.cpp: Mesh::to_3ds, Mesh::Mesh(Lib3dsMesh*)", "src/lib/shadow/face.cpp: Face::to_3ds", "src/lib/algebra/vector.cpp: determinant"])
p("C92","An OFF file cut short is noticed",
 "If the text of a mesh in OFF notation is cut at any place, because the writer was killed or the disk was full, reading what arrived either throws or gives the mesh that was written.",
 "all meshes that the format can hold and all places at which the text may be cut","the effect depends on the character at which the text ends: a test checks a few places, and the one that goes unnoticed is in the middle of a number",
 ["src/lib/io/io_off.cpp: OFFHandler::read, OFFHandler::write", "src/lib/shadow/mesh.cpp: operator>>(std::istream&, Mesh&), operator<<(std::ostream&, Mesh const&)"])
p("C93","A printed mesh can be read back",
 "What os << mesh prints is a text in OFF notation: reading it gives the mesh that was printed.",
 "all meshes: any name, any number of points and faces, any coordinates and boxes, also infinite ones","whether the two added comment lines are ignored depends on the name, on the box and on the reader; the digits depend on the coordinates",
 ["src/lib/shadow/mesh.cpp: operator<<(std::ostream&, Mesh const&)", "src/lib/shadow/bbox.cpp: operator<<(std::ostream&, Bbox const&)", "src/include/io/Off_stream/off_stream.h: Off_stream::operator>>"])
p("C94","A crash while results are written",
 "If the process ends while a mesh, a scene or the dual graphs of a scene are written, every file is as it was before or complete, no other file has changed, and what is left is read as it was before or as it should have become, or refused.",
 "all meshes, scenes and file systems, and all points at which the process may end","the crash can come between any two calls to the system: a test stops the program at a few of them",
 ["src/lib/io/io_off.cpp: OFFHandler::write", "src/lib/io/io_obj.cpp: WaveObjHandler::write", "src/lib/io/io_scene.cpp: SceneHandler::write", "src/lib/algorithms/scene_algorithms.cpp: save_building_duals"])
p("C95","An OBJ file cut short is noticed",
 "If the text of a list of meshes in OBJ notation is cut at any place, because the writer was killed or the disk was full, reading what arrived either throws or gives the meshes that were written; reading it is never undefined.",
 "all lists of meshes that the format can hold, with distinct names, and all places at which the text may be cut","the effect depends on the line and the character at which the text ends; a test checks a few places of one file",
 ["src/lib/io/obj_stream.h: operator<<, operator>>, read_objects, read_facets, object_names", "src/lib/io/io_obj.cpp: WaveObjHandler::read, WaveObjHandler::write"])
p("C96","What a brick print answers about points, polygons and faces",
 "contains(point) is true exactly for the points of the closed regions of its faces; overlaps(polygon) exactly when polygon and print share ground; contains(face) only if all the ground of the face is covered; get_height(point) is the height of the face there, and 0 outside; is_under(face) never fails, and is true only if the face is nowhere above the print.",
 "all brick prints, points, polygons and faces, for every CGAL whose Boolean operations are exact","the answers decide which faces are dropped, for all configurations",
 ["src/lib/projection/brick_projection.cpp: contains, overlaps, get_height, is_under"])
p("C97","Tools that write at the same time",
 "If several processes write scenes or dual graphs at the same time, in whatever order their steps are done, each of them ends as if it were alone, and every file then holds the text that one of them wrote to it; processes that share a directory and agree on its terrain leave together one scene with all their buildings.",
 "all numbers of processes, all scenes, file systems and schedules (orders of the single steps)","the number of orders in which the steps of two processes can be done is astronomical; a test sees one of them",
 ["src/lib/io/io_scene.cpp: SceneHandler::write", "src/lib/io/io_off.cpp: OFFHandler::write", "src/lib/algorithms/scene_algorithms.cpp: save_building_duals"])
p("C98","The heights of pixels in doubles",
 "The value of every pixel of the raster of a footprint is the mean of the heights of the faces in the pixel plus the height of the reference point; over faces that all have one height it is that height. In doubles, where the product, the sum and the quotient of the running mean, the heights of the planes and the final offset are rounded, this is false by a few units in the last place (three faces at 10 cm in one pixel give a pixel that is higher than all of them); the relative error is at most one in 2^51 for every height given to the pixel, every part of a face in the pixel and the offset, and there is no error for flat roofs whose height has at most 38 binary digits.",
 "every footprint, every pixel size, every library of polygon operations, every pixel with at most 32767 heights, every way of computing the heights of planes and of rounding positions","rounding errors depend on the number of faces in a pixel and on the values of all heights; they are found by tests only when the chosen heights happen to round up",
 ["src/lib/projection/face_projection.cpp: FacePrint::rasterize, get_height, get_plane_height", "src/lib/projection/raster_projection.cpp: RasterPrint(FootPrint const&, double), vertical_offset"])
p("C99","Writing again after crashes",
 "Whoever runs a writer again after it was interrupted, however often and wherever, gets what an uninterrupted run would have given: the same outcome and the same files, for the writers of OFF files, of OBJ files, of scenes as directories of OFF files and of dual graphs.",
 "all numbers of interrupted attempts and all places of the interruptions, all meshes, scenes and duals (duals that fail included), all file systems before, all names of buildings","a crash can happen between any two calls to the operating system, and attempts can follow each other; tests cannot place crashes everywhere",
 ["src/lib/io/io_off.cpp: OFFHandler::write", "src/lib/io/io_obj.cpp: WaveObjHandler::write", "src/lib/io/io_scene.cpp: SceneHandler::write", "src/lib/algorithms/scene_algorithms.cpp: save_building_duals"])
p("C100","Leftovers of another scene",
 "Writing a scene to a directory gives the same directory whether or not writing another scene there was interrupted before.",
 "all scenes, all interruption points, all file systems","the leftover files depend on the place of the interruption",
 ["src/lib/io/io_scene.cpp: SceneHandler::write, SceneHandler::read"])
p("C101","The elevation map of a building shows its roofs",
 "The footprint of a building keeps its name, reference point and EPSG code and covers ground only under its facets that are not vertical, at their heights. If these roofs do not overlap when seen from above, the faces of the footprint are exactly the roofs, the height over a point of a roof is that of the roof, and every pixel of the raster of the footprint has as many hits as roofs meet it and the mean of their heights plus the reference height.",
 "all buildings (any number of facets with any number of vertices), all pixel sizes, all pixels, every library of polygon operations that obeys the laws of Lawful","the claim composes the projection of the facets, their insertion in a brick print, the conversion to a footprint and the painting of the image; tests only check single buildings",
 ["src/lib/projection/utilities.cpp: orthoprint", "src/lib/projection/scene_projection.cpp: FootPrint::FootPrint(scene::UNode const&)", "src/lib/projection/brick_projection.cpp: operator +", "src/lib/projection/raster_projection.cpp: RasterPrint::RasterPrint(FootPrint const&, double)"])
p("C102","What a scene is read from",
 "A scene in a directory is read from the OFF files of this directory and nothing else: one building per file whose extension is off in small or capital letters and which is not called terrain, with the name of the file, and the terrain from terrain.off. Other files, directories and the rest of the disk do not matter; the order in which the system lists the directory only decides the order of the buildings. If one of these files is refused, or terrain.off is missing, an exception is thrown, whatever the order. An OBJ scene is read from its file only, a 3DS scene from its file and the XML document beside it.",
 "all directories with any number of files and any contents, all pairs of file systems which hold the same OFF files there, all orders of the listing","the order of a directory listing is chosen by the file system; tests see one order and one disk",
 ["src/lib/io/io_scene.cpp: SceneHandler::read", "src/lib/io/io_off.cpp: OFFHandler::read", "src/lib/io/io_obj.cpp: WaveObjHandler::read"])
p("C103","No index out of nowhere",
 "Whatever a program does with the library - adding, copying, moving, swapping and renaming meshes, also onto themselves, reading OBJ texts, working with an OBJ handler, reading back OFF texts the library has written, taking meshes from polyhedra, nodes and 3DS files, in any order and any number of times - every index of every face of every mesh it obtains names a vertex of that mesh, if this is so for the meshes it starts from. The triangles written to 3DS, and the faces taken from it, name vertices that are there whatever the mesh was. The only door for a wrong index is a list or an OFF text that comes from elsewhere.",
 "all finite sequences of operations, all starting meshes with valid indexes, all texts, surfaces, scene graphs and histories of handlers","a test runs some sequences of operations; the invariant has to survive every sequence",
 ["src/lib/shadow/mesh.cpp: Mesh", "src/include/io/Obj_stream/obj_stream.h: read", "src/lib/io/io_obj.cpp: WaveObjHandler", "src/lib/io/io_3ds.cpp: T3DSHandler", "src/lib/io/io_off.cpp: OFFHandler"])
p("C104","The horizontal position of the reference point does not matter",
 "A building stored relative to one reference point and the same building stored relative to another one at the same height, its coordinates adapted, give the same elevation map: the same size, pixels, hit counts and world coordinates, or the same exception. On the way the footprint has the same faces, identifiers, areas and heights, moved; footprints are added, and their sum refused, in the same way; and the outlines exported to vector files are the same points of the world.",
 "all buildings (lists of facets), reference points, horizontal displacements, pixel sizes and both orders of evaluation of the pixel update; all implementations of CGAL whose answers do not depend on absolute positions","a test compares two reference points for one building; an absolute coordinate left anywhere in the chain shows only for particular displacements",
 ["src/lib/projection/scene_projection.cpp: FootPrint", "src/lib/projection/brick_projection.cpp: BrickPrint", "src/lib/projection/face_projection.cpp: FacePrint::rasterize, get_height", "src/lib/projection/raster_projection.cpp: RasterPrint", "src/lib/algorithms/util_algorithms.cpp: centroid"])
p("C105","The height of the reference point does not matter",
 "A building whose heights are given relative to one reference point and the same building with heights relative to another, higher or lower one give the same elevation map in the world: the same pixels with the same heights, and the same hit counts.",
 "all buildings (lists of facets), reference points, vertical displacements and pixel sizes, both orders of evaluation of the pixel update","a test compares two reference heights for one building; whether a sum of heights or a height 0 stands for no roof shows only for some arrangements",
 ["src/lib/projection/brick_projection.cpp: is_under, get_height, occlusion", "src/lib/projection/face_projection.cpp: get_height, rasterize", "src/lib/projection/raster_projection.cpp: vertical_offset, RasterPrint", "src/lib/projection/scene_projection.cpp: FootPrint"])
p("C106","From a mesh to the heights of its footprint",
 "The footprint of a building made from a mesh of flat faces has, over every point of the ground on no edge, the height of the highest face of the mesh above this point, and the height 0 where there is none; it has the name of the mesh and the reference point and the EPSG code given.",
 "all meshes whose faces form an oriented surface (closed or open, faces given in either direction, floors included), all reference points and codes, all points of the ground on no edge, all libraries that obey the laws","a test compares a few points over one building; which corner a face begins at, the direction of the faces and their order are chosen by the library",
 ["src/lib/projection/utilities.cpp: trace, orthoprint", "src/lib/projection/scene_projection.cpp: FootPrint::FootPrint(UNode)", "src/lib/projection/face_projection.cpp: FacePrint(Facet)", "src/lib/scene/unode.cpp: UNode(Mesh)"])
p("C107","From an OBJ file or a directory of OFF files to the vector files of its buildings",
 "orthoproject, given an OBJ file of flat-faced meshes with distinct names, or a directory of OFF files, and asked to save, ends with code 0 and leaves for every mesh that is not the terrain a vector file named after it, holding a footprint with over every point of the ground on no edge the height of the highest face of this mesh, and 0 where there is none.",
 "all OBJ texts, all command lines asking for vector files only, all file systems that hold the text and can be written to, all libraries that obey the laws, all points of the ground on no edge","the whole program is run from the text to the files; a test has one file, one set of options and one state of the disk",
 ["src/bin/orthoproject.cpp: main", "src/lib/io/io_scene.cpp: SceneHandler::read", "src/lib/scene/unode.cpp: UNode(Mesh)", "src/lib/projection/scene_projection.cpp: FootPrint::FootPrint(UNode)"])
p("C108","cityformat there and back",
 "cityformat from an OBJ file to a directory of OFF files, and then from this directory to another OBJ file: both runs end with code 0, and the last file holds the objects of the first: the same names, and for each the same polygons in the same order, begun at any corner (the direction of the polygons of a closed object may be reversed, for all of them together); nothing else is in it except a terrain without polygons if there was none. Whoever reads the directory in between finds the same objects.",
 "all OBJ texts whose objects are oriented surfaces with distinct names that can be names of files and coordinates of at most six digits, all command lines that ask for these conversions, all file systems that can be written to, all orders of directory listings, all libraries that obey the laws","two runs of the program, a directory listing in any order, the choice of first corners by the library: a test has one of each",
 ["src/bin/cityformat.cpp: main", "src/lib/io/io_scene.cpp: SceneHandler::read, SceneHandler::write", "src/lib/scene/unode.cpp: UNode(Mesh)", "src/lib/shadow/mesh.cpp: Mesh(UNode)"])
p("C109","The order of a directory listing",
 "The order in which the system lists the directory of a scene does not change the outcome: orthoproject and cityformat (to OFF) end in the same way and leave the same disk, file for file and byte for byte.",
 "all directories, all pairs of orders in which the system may list them, all command lines, all file systems and libraries","a test runs on one file system, with the one order this system happens to use",
 ["src/bin/orthoproject.cpp: main", "src/bin/cityformat.cpp: main", "src/lib/io/io_scene.cpp: SceneHandler::read", "src/lib/algorithms/scene_algorithms.cpp: orthoproject, save_building_prints"])
p("C110","From the faces of a mesh to the pixels of its image",
 "Projecting and rasterising a building in pixels of size p gives an image over the tightest box around the faces that are not vertical, with as many rows and columns as pixels are needed, anchored at the upper left corner of this box; every pixel counts the faces that have a point over its square, and its value is the mean of one height of each of these faces over the square, raised by the height of the reference point, and 0 if there is no face. orthoproject, asked for images, leaves exactly this image for every building of the scene.",
 "all meshes that form an oriented surface and whose faces do not overlap when seen from above, all positive pixel sizes, all pixels, all libraries that obey the laws, and for the program all command lines asking for images and all file systems that hold the input and can be written to","it ranges over all meshes, pixel sizes and pixels, and composes the surface builder, the projection, the occlusion and the rasterisation; a test compares one image",
 ["src/lib/scene/unode.cpp: UNode(Mesh)", "src/lib/projection/scene_projection.cpp: FootPrint::FootPrint(UNode)", "src/lib/projection/raster_projection.cpp: RasterPrint::RasterPrint(FootPrint, double)", "src/lib/projection/face_projection.cpp: FacePrint::rasterize, FacePrint::get_height", "src/bin/orthoproject.cpp: main"])
p("C111","The command lines",
 "orthoproject accepts exactly the command lines that consist of the scene, then save, rasterize, both or none, an input format and some of the other options of the first line of its usage, none twice, in any order, as --name, --name=value or --name value, with names that may be shortened as long as only one option is meant; cityformat likewise with the scene, perhaps output, perhaps a path, or --formats alone. The program then works with exactly what has been typed, and 1 for a pixel size that is not given. Every other command line changes no file and gives the status 0 (help, version) or 255. From the words of the command line to the pictures and converted files, the result is the one the other properties describe. Every option that the help lists can be given.",
 "all command lines, that is all lists of words, all spellings and orders, all file systems","there are infinitely many command lines; the usage text is parsed at run time and a description below it can change the meaning of the lines above",
 ["src/bin/orthoproject.cpp: USAGE, Arguments, main", "src/bin/cityformat.cpp: USAGE, Arguments, main"])
p("C112","Every building gets its files",
 "orthoproject save rasterize ends normally on every scene whose buildings have sound surfaces: each face vertical, or with a valid shadow and not too steep, one at least not vertical, and an image that is not too large. Then for every building there are a vector file with at least one face, an attribute file and a complete image of the demanded pixel size, with at least one pixel and not outside of the building. No condition is put on flatness, on the order of the faces or on faces one above another.",
 "all meshes, any number of buildings and faces, any overlaps and straight angles, all pixel sizes, all spellings of the command line","the first three corners of a facet, in the order in which the surface library happens to begin it, decide whether the face is kept; a single building without a kept face ends the whole run",
 ["src/lib/projection/face_projection.cpp: FacePrint, is_perpendicular", "src/lib/projection/utilities.cpp: orthoprint", "src/lib/projection/raster_projection.cpp: RasterPrint", "src/bin/orthoproject.cpp: main"])
p("C113","The terminal tells what the tools do and how far they came",
 "Both tools show the settings as they were typed, then say when each step begins and when it is done: exactly the steps that were asked for, in their order. A run that ends well shows every step as done; a run that an exception ends shows the steps before as done, the failing one as begun, and the message of the exception is the last thing said. For OFF and OBJ files the standard error stream is empty if and only if the run ended well, which the exit status does not tell. What the settings announce is done.",
 "all command lines, states of the file system, scenes, and points at which an exception can end the run","the messages are spread over the bodies of functions with many exits; a test sees the output of one run, not that no early exit skips or repeats a message",
 ["src/bin/orthoproject.cpp", "src/bin/cityformat.cpp", "src/lib/algorithms/scene_algorithms.cpp", "src/lib/io/io_scene.cpp"])
p("C114","Help, version and refused command lines",
 "--help, in any readable command line, shows the usage and nothing else, with status 0; --version shows the name of the tool and its version; every other command line that does not have the form of the usage gets a complaint on the standard error stream and the usage, with status 255. No file changes.",
 "all command lines","the command lines are unbounded; tests try a few",
 ["src/bin/orthoproject.cpp", "src/bin/cityformat.cpp"])
p("C115","A step shown as done has left its files",
 "When the terminal shows a step of orthoproject as done, the files that the step makes are on the disk with their contents, and they are still there when the program ends, even if a later step fails. If the program ends and has said nothing on the standard error stream, every step that was asked for has been done and its files are on the disk.",
 "all command lines that are understood, scenes, formats and contents of the disk at the beginning","the failing step, the files that are already there and the names of the buildings range over an unbounded set of histories; tests see some failures, not every one",
 ["src/bin/orthoproject.cpp", "src/lib/algorithms/scene_algorithms.cpp", "src/lib/io/io_vector.cpp", "src/lib/io/io_raster.cpp"])
p("C116","Converting a city before drawing it makes no difference",
 "Convert an OBJ file with cityformat to a directory of OFF files and draw the directory with orthoproject: the vector files and the images show the buildings of the OBJ file, with the heights that a direct drawing of the OBJ file shows.",
 "all OBJ files whose meshes can be converted and drawn, all choices of the geometry library where to begin a face, all directories and names","the two programs talk through files; where the library begins a face is not fixed, and shapes, names and orders of directory entries range over unbounded sets",
 ["src/bin/cityformat.cpp", "src/bin/orthoproject.cpp", "src/lib/io/io_scene.cpp", "src/lib/scene/unode.cpp", "src/lib/shadow/mesh.cpp", "src/lib/projection/face_projection.cpp"])
p("C117","The tools look at nothing but the scene and the places of their results",
 "A run of orthoproject or cityformat depends on the arguments, on the scene (its file; for OFF its directory and the OFF files of it in the order the system lists them; for 3DS the file and the document beside it) and on what is at the places it may write, with the directory they are in. From two states of the disk that are the same at these places the run ends in the same way, prints the same, and leaves the same at all these places; the rest of the disk is neither read nor changed.",
 "all command lines and arguments, all pairs of states of the disk that are the same at the places named, all libraries","two whole disks must be compared for every possible content of the rest of the disk; a test has one disk",
 ["src/bin/orthoproject.cpp", "src/bin/cityformat.cpp", "src/lib/io/io_scene.cpp", "src/lib/algorithms/scene_algorithms.cpp"])
p("C118","A batch of runs on separate scenes may be done in any order",
 "In a script of runs of orthoproject and cityformat of which none looks at a place another one may write, every run ends in the same way, prints the same and leaves the same files as if it were the only one, and so in any order. Runs are separate when the directories of their scenes and outputs are different and none is inside another; conversions without dual graphs are separate when their outputs are. Scenes in one directory are not: buildings of the same name overwrite each other.",
 "all scripts of any length, all orders, all states of the disk, all libraries","all permutations of scripts of any length on all disks",
 ["src/bin/orthoproject.cpp", "src/bin/cityformat.cpp", "src/lib/algorithms/scene_algorithms.cpp", "src/lib/io/io_scene.cpp"])
p("C119","Running a tool again changes nothing",
 "A second run of orthoproject with the same arguments ends in the same way, prints the same and leaves every file as the first run left it, whatever the state of the disk before the first run and however it ended (success, exception in the middle, or stopped by undefined behaviour in the writer of images). For OBJ and 3DS scenes there is no condition; a directory of OFF files must not be named like one of the results. The same holds for cityformat if the scene is not among the places it writes and the output and dual_graphs are not inside each other.",
 "all arguments, all states of the disk, all scenes, any number of repetitions, all libraries","the state left by any first run, including those that fail half way, must be a fixed point of the second",
 ["src/bin/orthoproject.cpp", "src/bin/cityformat.cpp", "src/lib/algorithms/scene_algorithms.cpp", "src/lib/io/io_scene.cpp"])
p("C120","Tools that run at the same time on separate scenes do not disturb each other",
 "Several runs of orthoproject and cityformat are started at the same time on scenes that are separate (no run looks at a place another one may change). Whatever the order in which the operating system lets them make their calls, at any moment each run is exactly where it would be if it were alone and had made as many calls: it has printed the same and has left the same at each place it may change. Each of them comes to its end; when all have, each one has ended and printed as alone, and the disk is what the runs leave one after the other in any order. Two scenes of one directory are not separate: a directory with a file of the one and a file of the other, which no order of the runs leaves, is possible.",
 "all arguments, all states of the disk, any number of runs, all schedules of their calls, all ways in which the contents of files arrive on the disk, all libraries","the schedules cannot be controlled by a test, and their number grows exponentially",
 ["src/bin/orthoproject.cpp", "src/bin/cityformat.cpp", "src/lib/algorithms/scene_algorithms.cpp", "src/lib/io/io_scene.cpp"])
p("C121","A tool that was killed can be run again",
 "orthoproject or cityformat is killed at any call to the operating system, any number of times, and is then run to its end. The last run ends in the same way, prints the same and leaves exactly the same files as if the tool had never been killed, whatever was in the files that were being written at the time. A killed run leaves no litter: wherever there is something after it, the complete run leaves something of the same kind. For orthoproject on OBJ and 3DS scenes there is no condition; in the other cases the output must not overwrite the scene: a scene that is converted in its place is lost when the run is killed after its file was opened.",
 "all arguments, all states of the disk, all numbers of crashes and all crash points, all ways in which the contents of files arrive on the disk, all libraries","there is a crash point at every system call and in every file, and sequences of crashes multiply",
 ["src/bin/orthoproject.cpp", "src/bin/cityformat.cpp", "src/lib/algorithms/scene_algorithms.cpp", "src/lib/io/io_scene.cpp", "src/lib/io/io_raster.cpp", "src/lib/io/io_vector.cpp"])
p("C122","A printed footprint tells all there is in it",
 "What os << footprint prints has, line by line, the name, the reference point, the EPSG code, the bounding box, the number of faces and for each face its identifier, border and plane, in this order; two footprints print the same text only if they have the same name, whatever characters are in it, the same code, the same identifiers in the same order, and coordinates that are written in the same way. Where different numbers are written differently only equal footprints print the same text.",
 "all pairs of footprints: any names, also names that look like the lines of the text, any number of faces, any borders with holes, planes and boxes; all ways of writing numbers in one word","names are free text, so that the text could be ambiguous for some name that no test tries; there are infinitely many pairs of footprints",
 ["src/lib/projection/face_projection.cpp", "src/lib/projection/brick_projection.cpp", "src/lib/projection/scene_projection.cpp"])
p("C123","A conversion without complaint has been made",
 "If cityformat is asked for a conversion, ends, and has said nothing on the standard error stream, then every object of the scene is on the disk in the format that was asked for: in the directory <path> an OFF file with the name of each object and its text (the last one of those with the same name), or in the file <path> the OBJ text of all of them; and the dual graphs, if they were asked for, are on the disk too.",
 "all command lines that are understood, scenes, formats and contents of the disk at the beginning","whether a missing message can be trusted depends on every state of the disk and every scene: a directory in the place of a file, a missing directory, objects with the same name",
 ["src/bin/cityformat.cpp", "src/lib/io/io_scene.cpp", "src/lib/io/io_off.cpp", "src/lib/io/io_obj.cpp"])
p("C124","Whoever reads a converted OBJ file finds every object",
 "If cityformat has converted a scene to an OBJ file, ends and has said nothing on the standard error stream, then whoever reads this file finds every object of the scene in it, under its name and with its polygons.",
 "all command lines that are understood, scenes whose objects the format can hold, with different names that can be names of files, and contents of the disk at the beginning","The claim joins the text written for every scene with the reader for every name; a test has a few names, usually of one word.",
 ["src/bin/cityformat.cpp", "src/include/io/Obj_stream/obj_stream.h", "src/lib/io/io_scene.cpp"])
p("C125","A 3DS file held by a handler is released once",
 "A program may make, copy, assign, read, write and destroy 3DS handlers in any order: it never touches or releases a file that has been released, and when all its handlers are gone no 3DS file and no mesh of one is still allocated.",
 "all sequences of constructions, copies, assignments, reads, writes and destructions of any number of handlers, for all files and meshes with a defined conversion","A test runs one sequence; a double release shows only under a memory checker, and only for the sequence that was run.",
 ["src/lib/io/io_3ds.cpp", "src/include/io/io_3ds.h", "src/lib/shadow/mesh.cpp", "src/lib/shadow/face.cpp"])
p("C126","Exports and imports give back the memory they take",
 "When a call of a handler of vector files or images is over, whether it returns or throws, everything it has allocated is released.",
 "all footprints and images, all answers of GDAL at each step, all contents of files, and all states of the memory before the call","Leaks do not change results: unit tests pass with them, and how much is lost depends on the data and on the step that fails.",
 ["src/lib/projection/utilities.cpp", "src/lib/projection/brick_projection.cpp", "src/lib/projection/raster_projection.cpp", "src/lib/io/io_vector.cpp", "src/lib/io/io_raster.cpp"])
p("C127","Loss of power",
 "The power fails while orthoproject or cityformat runs, or after it has ended, any number of times, and the disk has lost any part of what was written: independently in each place a result may be missing, old, cut, or hold anything. Running the tool again ends in the same way, prints the same and leaves exactly the same files as if nothing had happened. The failure itself touches only places of results and leaves no file that the tool does not make.",
 "all command lines of both tools whose scene is not a place they write to, all contents of all files, every call at which the power fails, every choice of what each place of a result holds afterwards, any number of failures in a row, and any number of tools on separate scenes at the same time in every interleaving of their calls","A test cannot cut the power at every call, and the states of the disk that may follow are unbounded: what survives depends on the order in which the system wrote its caches.",
 ["src/bin/orthoproject.cpp", "src/bin/cityformat.cpp", "src/lib/io/io_raster.cpp", "src/lib/io/io_vector.cpp", "src/lib/io/io_obj.cpp", "src/lib/io/io_off.cpp", "src/lib/io/io_scene.cpp"])
p("C128","Error messages",
 "An error message says what is wrong and with which file. When a file to be read does not exist the message contains its path as the user wrote it, so that different paths give different messages; a missing file, a forbidden mode and each kind of malformed content have messages of their own, and a message is given only when what it says is so.",
 "all paths and spellings of paths, all modes, all states of the file system, all texts of OFF and OBJ files, all names of formats, all sizes of images and faces","A test sees the message of one bad input; that a message is given for exactly the inputs it describes is a statement on all texts.",
 ["src/include/io/Off_stream/off_stream.h", "src/include/io/Obj_stream/obj_stream.h", "src/lib/io/io_off.cpp", "src/lib/io/io_obj.cpp", "src/lib/io/io_3ds.cpp", "src/lib/io/io_vector.cpp", "src/lib/io/io_raster.cpp", "src/lib/io/io_scene.cpp", "src/lib/io/io_scene_tree.cpp", "src/lib/projection/face_projection.cpp"])
open('/verif/properties.jsonl','w').write(''.join(json.dumps(x)+'\n' for x in P))
print(len(P))
