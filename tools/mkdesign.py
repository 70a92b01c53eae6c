"""Rewrites the list in section 5 of DESIGN.md: titles from properties.jsonl, status and notes from MANIFEST.json; the plans in italics are kept or taken from PLANS."""
import json,re
PLANS={
'C72':'half-edge memory to index lists; the circulator lemma, position lemmas.',
'C73':'CGAL\'s soup algorithms as a parameter with laws; boundaries are unique up to rotation; turning all facets.',
'C74':'the determinant test against common planes (normals of a plane are proportional); loop invariant of the copy_if.',
'C76':'a store of numbered objects, members copied one by one; refinement of a small value semantics, by induction on the history.',
'C78':'queries with double coordinates and in_domain; containment in the box from the hull law of the library.',
'C80':'the four constructors over the real numbers, on top of the model of rotation_transform; algebra.',
'C81':'a grammar (words, decimal numbers, lines, files) independent of the readers; induction over words, digits and lines.',
'C82':'file system as a map from paths to entries; exact effect of write by cases on what stands at the path; refutation with a missing directory',
'C83':'the handler as a state machine (meshes, files); histories as lists of calls with their results, stopped by undefined behaviour; induction over the history against a closed form of the contents',
'C84':'lib3ds and tinyxml2 as parameters; lookup by name proved unique by induction over the forest, then composition with C34 and C36',
'C85':'composition of C82 (what is on the disk), C23 (round trip of the text) and C29 (separation of the terrain); the split of a permutation by name',
'C86':'symbolic execution of the main programs; the steps are separated by a frame: each one changes only its own entry of the directory of the scene',
'C87':'CGAL (stitching, hole filling, Nef polyhedra) is a parameter with laws (NefLaw); the constructor is modelled around it; union by induction over the list; a lawful demonstration library and two tetrahedra give the refutation.',
'C88':'Model/VecDbl.lean: the operators of vector.cpp on IEEE doubles with every operation rounded, with the three orders of valarray::sum as a parameter. Counterexamples evaluated by the kernel; exactness from fl being the identity on 53-bit numbers; symmetry by cases on infinities.',
'C89':'Model/VecDbl.lean (normalToD, with sqrt rounded from the real square root). Relative error analysis of sum, square root and quotient; witnesses evaluated by the kernel.',
'C90':'Model/ConvexDbl.lean: is_convex with rounded operations. Lemmas/Approx.lean propagates error bounds through sums and products; the sign is right when the exact value exceeds the bound. Witnesses evaluated by the kernel.',
'C91':'Single precision rounding (fl32) with its error bound and exactness on 24 digits; the structure of the round trip as in C16; the error of the determinant with the App calculus of C90 and the normal of C89.',
'C92':'Prefixes of lists of lines (Lemmas/Cut.lean), the reader on a prefix by cases on the line in which it ends.',
'C93':'Comments do not count (C20), then C18.',
'C94':'Writers as lists of system calls (Model/Crash.lean), refinement to the writers of the other modules, prefixes of the list of calls, then C92 for the reader.',
'C95':'Prefixes of lists of lines and of numbers (Lemmas/Cut.lean, Lemmas/ObjCut.lean), the sections that are left, the reader on sections.',
'C96':'The questions are modelled in Model/BrickPrint; regions are compared at the generic points as in C44. Proofs from the laws of CGAL (Lawful); refutation by evaluation in the library of rectangles.',
'C97':'Small-step machine of processes with own stream positions over a shared file system (Model/Parallel.lean), invariant over all schedules: the process that opened a file last is at the end of its right beginning.',
'C98':'Model/RasterMean.lean: the loops of rasterize, get_height and vertical_offset with every operation rounded; the list of the heights given to each pixel as a ghost; induction on that list for the error, with the recurrence of the running mean.',
'C99':'Relation between the files before and after interrupted attempts: equal except that writable paths of the job hold some text; which paths are writable never changes; writing all files of the job removes the difference (induction on the list of files).',
'C100':'The relation of C99 with the files of the first scene; writing the files of the second one leaves the difference on the others.',
'C101':'Composition of C43, C46_apart, C51_node and C52_aligned_partial; the footprint of a node is a fold of insertions that leaves faces which do not overlap unchanged.',
'C102':'The files taken as buildings are characterised by their names (C31_buildings); two listings of the same files are permutations of each other after filtering, and reading a list of files succeeds exactly when every file is read, so the results are permuted in the same way.',
'C103':'The meshes a program can obtain are the smallest set closed under the operations; validity is shown to be an invariant by induction over how a mesh was obtained.',
'C104':'Equivariance: moving facets, face prints, brick prints, boxes and planes commutes with each operation; proved operation by operation, by induction over the faces and pixels, from the equivariance of the CGAL operations, which the library of rectangles satisfies.',
'C105':'Equivariance under vertical displacement, operation by operation; the comparison at an insertion is the only one that is not, and its condition is made explicit. The pixels from the characterisation of rasters (C51): the mean of raised heights is the raised mean.',
'C106':'Model the walk around the facets of the half-edge surface (Surf.facet, Surf.facets) and compose it with the constructor of footprints; relate every print to the corners of a face of the mesh by rotations and reversals; specify heights by planes through the corners.',
'C107':'Compose the model of the command line (C86), of the reader (C29, C81) and of the projection (C106) on nodes that are surfaces; an exception of the constructor of a node is kept until the node is projected (simplification).',
'C108':'Compose C29, C73, C30, C67 and C23 on nodes that are surfaces: a relation Turned between meshes is kept by nodes and by files; the terrain is taken out and put back.',
'C109':'An exact description of the disk after a run (C86_exact), by induction over the lists written; permuted lists give the same set of results; C102 for the permuted input.',
'C110':'Compose C73 (surface), C106 (prints of faces), C46/C101 (non-overlapping prints stay as they are), C49 (box), C51/C52 (pixels, with the explicit displacement) and C86 (files).',
'C111':'docopt is modelled function by function; the pattern of each usage text is computed by the kernel; the matching of the first line is rewritten to operations on the lists of words and options; the parser of the command line is shown equivalent to an inductive grammar in both directions',
'C112':'Props/Complete.lean: the prints of the facets of the node (C73_node, C106_facets), the box and raster of the footprint (C51_node, C51_defined), the files (files_obj); the kinked roof refutes the full statement.',
'C113':'Model/Console: the tools again, with the list of what they say; a proof that leaving out the messages gives the model of the other properties (C113_same); a calculus of steps (what a program says when it ends well or by an exception, closed under sequencing).',
'C114':'The model of docopt (C111) with what it prints before it ends the program.',
'C115':'Done.lean: the specification gives each step of C113 with the statement about the files that it leaves; by induction over the program: each step establishes its statement, and the later steps do not touch the paths it speaks of (frame lemmas of C67).',
'C116':'Again.lean: what cityformat writes and orthoproject reads are the same meshes up to turning every face, or reversing them all (C108); Drawable, Mappable and Picturable, and the specifications of heights and images, do not change when faces are turned or reversed. Turning.lean: examples and the counterexample, run through both programs.',
'C117':'Locality as a relation between two runs, closed under the constructs of the model; every writer and reader is shown to look at its own places; with the frame of C67.',
'C118':'From C117 and C67 by induction on the script.',
'C119':'Files written one after the other depend on which places are writable, which does not change while files are written; steps are composed with the locality of C117.',
'C120':'A process that keeps to its places takes the same steps in states that agree there; invariant over the schedule: each process is where it would be alone.',
'C121':'Every state in the middle of a run differs from the start only in directories and files that the run makes; the parts of a run do not look at what the later parts change.',
'C122':'The text is cut at the line breaks from the left; the name is found from the right, because the letter R occurs only once after it.',
'C123':'The run is taken apart into reading, dual graphs and writing; the files of the dual graphs end with .txt and those of the scene do not, so that they do not touch each other.',
'C124':'C123 and the round trip of C23 for names of several words.',
'C125':'A model of memory with addresses (Model/Memory.lean); an invariant of ownership over histories of steps, and counts of allocated objects for sessions.',
'C126':'The model of memory of C125: counts of allocated objects by kind before and after each call, by induction over the facets, rings and vertices.',
'C127':'Processes of Model/Process as sequences of calls; the disk after a failure is any set of files that agrees in each place with the disk before the run or with what a call may have left there; induction on the process: each call that reads a place of a result has written it before in the same run.',
'C128':'The functions of the model again with outcomes that carry texts; erasing the texts gives the old functions; case distinction on the lines of the text, and comparison of the first characters of the texts, for which one is given when.',
'C79':'the loop over the pixels on a stream with text, flags and precision; induction over rows and over the pixels of a row against a matrix specification.',
'C77':'the compound assignments on the store, statement by statement; undefined where a reference is used after the container changed.',
'C75':'sum over the border range; next permutes the border half-edges.',
}
D='/verif/DESIGN.md'
s=open(D).read()
head,rest=s.split('## 5. Plan and result per property\n',1)
body,tail=rest.split('## 6.',1)
plans=dict(PLANS)
for l in body.splitlines():
    m=re.match(r'\* \*\*(C\d+)\*\* .*?\. \*(.*?)\* Status',l)
    if m and m.group(1) not in PLANS: plans[m.group(1)]=m.group(2)
M={c['property']:c for c in json.load(open('/verif/MANIFEST.json'))['claims']}
out=['The status and the exact theorem names of every claim are in MANIFEST.json.','']
for l in open('/verif/properties.jsonl'):
    d=json.loads(l); c=M[d['id']]
    out.append(f"* **{d['id']}** {d['title']}. *{plans.get(d['id'],'TODO')}* Status: {c['status']}. {c.get('note','')}".rstrip())
open(D,'w').write(head+'## 5. Plan and result per property\n'+'\n'.join(out)+'\n\n## 6.'+tail)
