# Working notes: what the code does (read from /repo/src), incl. defects to prove as negations

Conventions: model outcome type `Out a = ok a | thrown exc | ub`. Doubles: exact rationals unless stated
(`Dbl` = nan|ninf|fin Rat|pinf for bbox comparisons). size_t = Nat unless wraparound matters.

shadow/point,vector (lib/shadow/{point,vector}.cpp): Vector(o,t)=t-o; Point-Point: `lhs - rhs = Vector(rhs,lhs)`;
 cross ^=, det expansion l.186-191, normal_to(a,b,c)= v/|v| with v=(b-a)^(c-b). valarray ctor size!=3 -> logic_error.
bbox.cpp: Bbox() = (inf,-inf)x3; += uses std::min/std::max (NaN on the right ignored; NaN on left sticks). to_cgal reorders.
face.cpp: ctor (list/vector) throws logic_error if <3; Face() empty; 4-arg ctor orientation; invert_orientation = reverse tail
 (empty => UB: next(begin)); rotate = left rotate (empty UB); rotate(n): UB unless 0<=n<=size; find/overide first occurrence;
 offset adds; is_convex l.155-202 (out_of_range if coords.size<degree, or degree<3; triangle true; else all
 ((B-A)^normal).(C-B) <0 ; .at throws; early exit); to_3ds fan (p0,b,c), logic_error if not convex;
 operator== : degree equal, then lhs.points.at(0) (EMPTY: out_of_range), find first occurrence in rhs, rotate_copy, compare.
   With duplicates: asymmetric ([1,0,0]==[0,1,0] true, reverse false). operator!= is !(rhs==lhs) (swapped). 
   pentagram passes is_convex.
mesh.cpp: copy operator= keeps OLD bbox (`bounding_box = bounding_box`, l.126) -> `Mesh()+=m` has empty bbox (l.255) -> sums that
 start from Mesh() (exclude_mesh, T3DS mesh/level_terrain/mesh_by_type) lose first bbox. += : name "_" join, bbox union, points
 append, faces offset. self += is UB (aliasing insert). set_name returns copy (copy ctor keeps bbox). == ignores name/bbox, no
 short circuit (inner_product) so empty faces throw. Ctor from Lib3dsMesh l.25-63: orientation true iff det(p1-p0,p2-p1,n)>eps
 else (0,2,1); points[] unchecked (UB if idx>=size). to_3ds l.281-330: copies only FIRST triangle of every face; count
 Sum(degree-2) -> remaining faceL zero (0,0,0). points count cast to 16-bit word (UB >65535 points: writes past). name: strncpy 63,
 buffer[63] uninitialised -> UB if name length >= 63. Face indices truncated to 16 bit words.
io/Line/line.h: readlines = getline lines ("a\nb\n"->[a,b]; "a\nb"->[a,b]; ""->[]; "\n"->[""]).
io/Off_stream: parse l.161 `line.at(0)=='#' || line.empty()` -> blank line throws out_of_range. Header: vector sizes(3), copies ALL
 ints: >3 ints UB, <3 ints zero filled; third must be 0 else range_error; lines.size()==2+s0+s1 else range_error. `>>`: empty ->
 out_of_range, lines[0]!="OFF" -> failure, only header -> out_of_range. read_points: <3 doubles UB, extra ignored. read_faces: n then
 ints; more than n -> UB, fewer -> zeros; Face ctor throws n<3. print: "# Mesh: "name, "OFF", "np nf 0", points "x y z", faces "n i j k".
io/Obj_stream: write: all "v x y z", then for each mesh "\n" "o name" "f i+shift+1 " each trailing space; empty mesh list UB (prev(end)).
 read: drop blank/'#' lines; if none -> out_of_range; points while front=='v' (points[0]=origin placeholder) via line2pt(substr(1));
 object_names: every later line with front 'o' : first token of substr(1); size = lines until next 'o'; std::map => sorted by name,
 duplicates: first kept; lines before first 'o' skipped; all lines inside object parsed as facets regardless of prefix
 ('v' lines after objects become faces!). read_facet: doubles -> size_t; index_map first-seen renumber; Face ctor throws <3;
 select: selected[new]=points[old], old>=size UB.
algorithms/io_algorithms.cpp str2pt: 3 -> point; 4 -> coordinates[4] UB; else failure.
io_obj.cpp: exclude_mesh: stable_partition name != excluded; sum of excluded from Mesh(), set_name(excluded); get_scene.
 modes["read"]/["write"] missing => false => throws filesystem_error. file missing throws.
io_scene.cpp: formats ["3DS XML","3DS","OFF","OBJ"] -> 0..3, ext [".3ds",".3ds",".off",".obj"]; unknown -> runtime_error;
 check_extension iequals for all but OFF. read off dir: *.off (case-insens) with stem != "terrain" + terrain.off required.
 write off: one file per building name, + terrain name; t3ds* -> logic_error. t3ds: runtime_error on xml -> fallback no xml.
io_3ds.cpp: ctor modes exactly one of read/write else throws. get_nodes(level) l.221: `p_nodes=childs` outside loop: level0 -> [],
 level n -> children of FIRST top node repeated n times; no deeper; null file->nodes UB; throw unreachable. node_meshes(name) l.156:
 vector pre-sized total THEN insert at end -> total empty meshes + real ones. node_meshes rec l.276: children first (post-order),
 then own mesh if mesh_by_name(node name) exists and first char in types. mesh(): accumulate over types (char order).
 node not found => null deref UB. write_meshes: meshes[0] of empty UB; chain.
io_scene_tree: pivot = Pivot elements or bbox centre; epsg cast to 16 bits, default 2154 if text invalid; building ids in order; missing elem UB.
face_projection.cpp: get_plane_height exact throws overflow_error if c==0, else -(d+ax+by)/c; inexact throws if |c|<eps; get_height =
 !degenerate*contains*plane_height (all evaluated => throws if c==0); area = outer - sum hole.area (signed! holes are CW=> adds);
 contains: outer not unbounded && no hole strictly inside. is_degenerate = c==0 || (has holes && |area|<eps). facet ctor: reverse if
 simple&&CW. equal_border compares holes in order. to_ogr: coeff_d = d + ref.z (WRONG plane translation). rasterize l.293-333:
 i_min=floor((top-ymax)/p), j_min=floor((xmin-left)/p), w,h=ceil; throws only if both dims out (&&); running mean with short hits.
projection/utilities.cpp: orthoprint = FacePrint of each facet, minus empty/degenerate; unpack appends pieces; ring to_ogr adds ref x,y,
 closeRings; get_ogr_ring drops last point (n-1).
brick_projection.cpp: contains(point) any; contains(face): (join all) ∩ f is exactly one polygon == f; overlaps; is_under: perpendicular/
 degenerate -> true else contains(f) && f.h(centroid of first 3 verts) <= h(centroid) ; get_height = SUM over facets containing;
 += face l.293: empty->push; no overlap->push; under->drop; else lfacets=[l]; for r in facets: temp=lfacets.occlusion(r) appended;
 then lfacets appended; bbox += l.bbox always. occlusion(l) l.339: filter; for each r in this: no intersection -> push l, push r;
 else for each intersection piece: l.h > r.h at sample -> r minus piece else l minus piece; unpack. With several/zero r: l duplicated / lost.
 += brick: filter; += each nonempty nondegenerate; filter. == is permutation of faces (== on border+plane, ignores id).
scene_projection.cpp: += : if empty *this = other; else throw logic_error if ref or epsg differ; FootPrint(unode)= fold of orthoprint.
raster_projection.cpp: height=ceil((ymax-ymin)/p) etc; ref = fp.ref+(xmin,ymax,0); at(i,j) guard `i>h && j>w` (wrong), then vector.at(i*w+j);
 vertical_offset adds ref.z where hits!=0, once (flag). == DISCARDS pixel comparison (l.341). read: gt[1]+gt[5]~0 else logic_error; hits all 1.
unode.cpp: bbox not updated by affine transforms / stitch; facet_adjacency_matrix; set_face_ids; prunable: cross of normals == 0
 (antiparallel too); combinable; prune loop (unode_algorithms.cpp:69).
adjacency_stream.h: n=floor(sqrt size); logic_error if not square; prints rows.
util_algorithms: rotation_transform writes to begin of EMPTY vector: UB if map nonempty; check_collinearity only first 3 (throws <3);
 extrem_points l.57; centroid = mean of vertices after unique; edge_lengths/circumference.
scene_algorithms: orthoproject size+terrain order. unode_algorithms: affine/translate/scale/rotate. camera.cpp trivial.
bin: main always EXIT_SUCCESS; saving gate; rasterizing iff pixel_size != 0.
