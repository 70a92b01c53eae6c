/-!
The small files of `/repo/ressources` that the unit tests of the project read, copied character by character.
-/
namespace City.Conform

/-- ressources/3dModels/OFF/F29051.off. -/
def f29051 : List Char := "#Name: F29051\n#Bounding box: 65.82 70.27 190.19 192.27 -48 41.59\nOFF\n4 2 0\n65.82 190.19 38.67\n65.82 190.19 -48\n70.27 192.27 -48\n70.27 192.27 41.59\n3 1 2 0\n3 3 0 2\n".toList

/-- ressources/3dModels/OFF/F29054.off. -/
def f29054 : List Char := "#Name: F29054\n#Bounding box: 70.27 74.72 192.27 194.35 -48 41.59\nOFF\n4 2 0\n70.27 192.27 41.59\n70.27 192.27 -48\n74.72 194.35 -48\n74.72 194.35 38.67\n3 0 1 2\n3 2 3 0\n".toList

/-- ressources/3dModels/OFF/F29057.off. -/
def f29057 : List Char := "#Name: F29057\n#Bounding box: 73.35 74.72 194.35 197.28 -48 38.67\nOFF\n4 2 0\n74.72 194.35 38.67\n74.72 194.35 -48\n73.35 197.28 -48\n73.35 197.28 38.67\n3 0 1 2\n3 2 3 0\n".toList

/-- ressources/3dModels/OFF/F29060.off. -/
def f29060 : List Char := "#Name: F29060\n#Bounding box: 68.91 73.35 195.17 197.28 -48 41.59\nOFF\n4 2 0\n73.35 197.28 38.67\n73.35 197.28 -48\n68.91 195.17 -48\n68.91 195.17 41.59\n3 1 2 0\n3 3 0 2\n".toList

/-- ressources/3dModels/OFF/F29063.off. -/
def f29063 : List Char := "#Name: F29063\n#Bounding box: 66.05 68.91 193.82 195.17 -48 41.59\nOFF\n4 2 0\n68.91 195.17 41.59\n68.91 195.17 -48\n66.05 193.82 -48\n66.05 193.82 39.71\n3 0 1 2\n3 2 3 0\n".toList

/-- ressources/3dModels/OFF/F29066.off. -/
def f29066 : List Char := "#Name: F29066\n#Bounding box: 64.47 66.05 193.08 193.82 -48 39.71\nOFF\n4 2 0\n66.05 193.82 39.71\n66.05 193.82 -48\n64.47 193.08 -48\n64.47 193.08 38.67\n3 0 1 2\n3 2 3 0\n".toList

/-- ressources/3dModels/OFF/F29069.off. -/
def f29069 : List Char := "#Name: F29069\n#Bounding box: 64.47 65.82 190.19 193.08 -48 38.67\nOFF\n4 2 0\n64.47 193.08 38.67\n64.47 193.08 -48\n65.82 190.19 -48\n65.82 190.19 38.67\n3 0 1 2\n3 2 3 0\n".toList

/-- ressources/3dModels/OFF/T11107.off. -/
def t11107 : List Char := "#Name: T11107\n#Bounding box: 64.47 70.27 190.19 195.17 38.67 41.59\nOFF\n5 3 0\n65.82 190.19 38.67\n64.47 193.08 38.67\n66.05 193.82 39.71\n68.91 195.17 41.59\n70.27 192.27 41.59\n3 2 0 1\n3 3 4 2\n3 0 2 4\n".toList

/-- ressources/3dModels/OFF/T11108.off. -/
def t11108 : List Char := "#Name: T11108\n#Bounding box: 68.91 74.72 192.27 197.28 38.67 41.59\nOFF\n4 2 0\n70.27 192.27 41.59\n68.91 195.17 41.59\n73.35 197.28 38.67\n74.72 194.35 38.67\n3 3 0 1\n3 1 2 3\n".toList

/-- ressources/tests/building_sum_mesh.off. -/
def buildingSum : List Char := "#Name: F29051_F29054_F29057_F29060_F29063_F29066_F29069_T11107_T11108\n#Bounding box: 64.47 74.72 190.19 197.28 -48 41.59\nOFF\n37 19 0\n65.82 190.19 38.67\n65.82 190.19 -48\n70.27 192.27 -48\n70.27 192.27 41.59\n70.27 192.27 41.59\n70.27 192.27 -48\n74.72 194.35 -48\n74.72 194.35 38.67\n74.72 194.35 38.67\n74.72 194.35 -48\n73.35 197.28 -48\n73.35 197.28 38.67\n73.35 197.28 38.67\n73.35 197.28 -48\n68.91 195.17 -48\n68.91 195.17 41.59\n68.91 195.17 41.59\n68.91 195.17 -48\n66.05 193.82 -48\n66.05 193.82 39.71\n66.05 193.82 39.71\n66.05 193.82 -48\n64.47 193.08 -48\n64.47 193.08 38.67\n64.47 193.08 38.67\n64.47 193.08 -48\n65.82 190.19 -48\n65.82 190.19 38.67\n65.82 190.19 38.67\n64.47 193.08 38.67\n66.05 193.82 39.71\n68.91 195.17 41.59\n70.27 192.27 41.59\n70.27 192.27 41.59\n68.91 195.17 41.59\n73.35 197.28 38.67\n74.72 194.35 38.67\n3 1 2 0\n3 3 0 2\n3 4 5 6\n3 6 7 4\n3 8 9 10\n3 10 11 8\n3 13 14 12\n3 15 12 14\n3 16 17 18\n3 18 19 16\n3 20 21 22\n3 22 23 20\n3 24 25 26\n3 26 27 24\n3 30 28 29\n3 31 32 30\n3 28 30 32\n3 36 33 34\n3 34 35 36\n".toList

/-- ressources/3dModels/OBJ/minimal.obj. -/
def minimalObj : List Char := "# Minimal example\n\nv -0.5 -0.5 0.5\nv -0.5 -0.5 -0.5\nv -0.5 0.5 -0.5\nv -0.5 0.5 0.5\nv 0.5 -0.5 0.5\nv 0.5 -0.5 -0.5\nv 0.5 0.5 -0.5\nv 0.5 0.5 0.5\n\no 1\nf 4 3 2 1\nf 2 6 5 1\nf 3 7 6 2\nf 8 7 3 4\nf 5 8 4 1\nf 6 7 8 5\n\n# End of file\n".toList

/-- ressources/3dModels/OBJ/two.obj. -/
def twoObj : List Char := "# Minimal example\n\nv -0.5 -0.5 0.5\nv -0.5 -0.5 -0.5\nv -0.5 0.5 -0.5\nv -0.5 0.5 0.5\nv 0.5 -0.5 0.5\nv 0.5 -0.5 -0.5\nv 0.5 0.5 -0.5\nv 0.5 0.5 0.5\nv 1 1 2\nv 1 1 1\nv 1 2 1\nv 1 2 2\nv 2 1 2\nv 2 1 1\nv 2 2 1\nv 2 2 2\n\n# First object\no 1\nf 4 3 2 1\nf 2 6 5 1\nf 3 7 6 2\nf 8 7 3 4\nf 5 8 4 1\nf 6 7 8 5\n\n# Second object\no 2\nf 12 11 10 9\nf 10 14 13 9\nf 11 15 14 10\nf 16 15 11 12\nf 13 16 12 9\nf 14 15 16 13\n\n# End of file\n".toList

/-- ressources/3dModels/OBJ/two_separated.obj. -/
def twoSeparated : List Char := "# Minimal example\n\nv -0.5 -0.5 0.5\nv -0.5 -0.5 -0.5\nv -0.5 0.5 -0.5\nv -0.5 0.5 0.5\nv 0.5 -0.5 0.5\nv 0.5 -0.5 -0.5\nv 0.5 0.5 -0.5\nv 0.5 0.5 0.5\n\n# First object\no 1\nf 4 3 2 1\nf 2 6 5 1\nf 3 7 6 2\nf 8 7 3 4\nf 5 8 4 1\nf 6 7 8 5\n\n# Second object\no 2\nv 1 1 2\nv 1 1 1\nv 1 2 1\nv 1 2 2\nv 2 1 2\nv 2 1 1\nv 2 2 1\nv 2 2 2\n\nf 12 11 10 9\nf 10 14 13 9\nf 11 15 14 10\nf 16 15 11 12\nf 13 16 12 9\nf 14 15 16 13\n\n# End of file\n".toList

/-- ressources/tests/obj_minimal.txt. -/
def minimalShown : List Char := "#Name: 1\n#Bounding box: -0.5 0.5 -0.5 0.5 -0.5 0.5\nOFF\n8 6 0\n-0.5 0.5 0.5\n-0.5 0.5 -0.5\n-0.5 -0.5 -0.5\n-0.5 -0.5 0.5\n0.5 -0.5 -0.5\n0.5 -0.5 0.5\n0.5 0.5 -0.5\n0.5 0.5 0.5\n4 0 1 2 3\n4 2 4 5 3\n4 1 6 4 2\n4 7 6 1 0\n4 5 7 0 3\n4 4 6 7 5\n\n".toList

/-- ressources/tests/obj_two.txt. -/
def twoShown : List Char := "#Name: 1\n#Bounding box: -0.5 0.5 -0.5 0.5 -0.5 0.5\nOFF\n8 6 0\n-0.5 0.5 0.5\n-0.5 0.5 -0.5\n-0.5 -0.5 -0.5\n-0.5 -0.5 0.5\n0.5 -0.5 -0.5\n0.5 -0.5 0.5\n0.5 0.5 -0.5\n0.5 0.5 0.5\n4 0 1 2 3\n4 2 4 5 3\n4 1 6 4 2\n4 7 6 1 0\n4 5 7 0 3\n4 4 6 7 5\n\n#Name: 2\n#Bounding box: 1 2 1 2 1 2\nOFF\n8 6 0\n1 2 2\n1 2 1\n1 1 1\n1 1 2\n2 1 1\n2 1 2\n2 2 1\n2 2 2\n4 0 1 2 3\n4 2 4 5 3\n4 1 6 4 2\n4 7 6 1 0\n4 5 7 0 3\n4 4 6 7 5\n\n".toList

end City.Conform
