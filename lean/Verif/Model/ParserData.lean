/-!
# The serialized automaton of `BooleanExpressionParser.java`

Generated by `tools/atn.py` from `src/main/java/com/github/sidhant92/boolparser/parser/antlr/BooleanExpressionParser.java:1283-1372`:
the UTF-16 units of the string constant `_serializedATN`, one list per line of the source.
-/

namespace BoolParser

/-- `BooleanExpressionParser.java:1283-1302`. -/
def parserATN0 : List (List Nat) := [
  [4,1,47,147,2,0,7,0,2,1,7,1,2],
  [2,7,2,2,3,7,3,2,4,7,4,2],
  [5,7,5,2,6,7,6,2,7,7,7,2],
  [8,7,8,2,9,7,9,2,10,7,10,1,0,1,0,1],
  [0,1,1,1,1,1,1,1,1,1,1,1],
  [1,1,1,1,1,1,1,1,1,1,1,1],
  [1,1,1,1,1,1,1,1,1,1,1,1],
  [1,1,1,1,1,3,1,46,8,1,1,1,1],
  [1,1,1,1,1,1,1,1,1,3,1,54,8],
  [1,1,1,1,1,1,1,1,1,1,1,1],
  [1,1,1,1,1,1,1,1,1,1,1,1],
  [1,1,1,1,1,1,1,1,1,1,1,1],
  [1,1,1,1,1,1,1,1,1,1,1,1],
  [1,1,1,1,1,5,1,82,8,1,10,1,12,1,85,9],
  [1,1,2,1,2,1,3,1,3,1,4,1],
  [4,1,5,1,5,5,5,95,8,5,10,5,12,5,98,9],
  [5,1,5,1,5,5,5,102,8,5,10,5,12,5,105,9],
  [5,1,5,1,5,5,5,109,8,5,10,5,12,5,112,9],
  [5,1,5,1,5,5,5,116,8,5,10,5,12,5,119,9],
  [5,5,5,121,8,5,10,5,12,5,124,9,5,1,5,1]]

/-- `BooleanExpressionParser.java:1303-1322`. -/
def parserATN1 : List (List Nat) := [
  [5,1,6,1,6,1,7,1,7,1,8,1,8],
  [1,8,1,8,1,8,1,8,1,8,1,8,1,8,3,8,141],
  [8,8,1,9,1,9,1,10,1,10,1,10,0,1,2,11,0],
  [2,4,6,8,10,12,14,16,18,20,0,7,1,0],
  [27,32,1,0,21,26,1,0,11,20,1,0,9],
  [10,2,0,35,35,37,37,1,0,4,5,1,0,7,8,164,0],
  [22,1,0,0,0,2,53,1,0,0,0,4,86,1],
  [0,0,0,6,88,1,0,0,0,8,90,1,0,0],
  [0,10,92,1,0,0,0,12,127,1,0,0,0,14],
  [129,1,0,0,0,16,140,1,0,0,0,18],
  [142,1,0,0,0,20,144,1,0,0,0,22],
  [23,3,2,1,0,23,24,5,0,0,1,24],
  [1,1,0,0,0,25,26,6,1,65535,65535,0],
  [26,27,5,33,0,0,27,28,3,2,1,0,28],
  [29,5,34,0,0,29,54,1,0,0,0,30,31],
  [5,6,0,0,31,54,3,2,1,15,32,33,5,22],
  [0,0,33,54,3,2,1,13,34,35,3,8,4,0,35,36,3,10,5],
  [0,36,54,1,0,0,0,37,54,3,16,8,0,38,39,5,44,0],
  [0,39,40,3,14,7,0,40,41,5,3,0,0,41,42,3,14],
  [7,0,42,54,1,0,0,0,43,45,5,44,0,0,44,46,5,6]]

/-- `BooleanExpressionParser.java:1323-1342`. -/
def parserATN2 : List (List Nat) := [
  [0,0,45,44,1,0,0,0,45,46,1,0,0,0,46,47,1],
  [0,0,0,47,48,5,2,0,0,48,54,3,10,5,0,49,50,5],
  [44,0,0,50,51,3,12,6,0,51,52,3,10,5,0,52,54,1,0],
  [0,0,53,25,1,0,0,0,53,30,1,0,0,0],
  [53,32,1,0,0,0,53,34,1,0,0,0,53,37,1,0,0],
  [0,53,38,1,0,0,0,53,43,1,0,0,0,53,49,1,0],
  [0,0,54,83,1,0,0,0,55,56,10,14,0,0,56,57,3,4],
  [2,0,57,58,3,2,1,15,58,82,1,0,0,0,59,60,10,12],
  [0,0,60,61,5,26,0,0,61,82,3,2,1,13,62,63,10,11],
  [0,0,63,64,5,24,0,0,64,82,3,2,1,12,65,66,10,10,0],
  [0,66,67,5,23,0,0,67,82,3,2,1,11,68,69,10,9,0],
  [0,69,70,5,25,0,0,70,82,3,2,1,10,71,72,10,8,0,0],
  [72,73,5,21,0,0,73,82,3,2,1,9,74,75,10,7,0,0],
  [75,76,5,22,0,0,76,82,3,2,1,8,77,78,10,5,0,0],
  [78,79,3,18,9,0,79,80,3,2,1,6,80,82,1,0,0,0],
  [81,55,1,0,0,0,81,59,1,0,0,0,81,62,1,0,0],
  [0,81,65,1,0,0,0,81,68,1,0,0,0,81,71,1,0],
  [0,0,81,74,1,0,0,0,81,77,1,0,0,0,82,85,1],
  [0,0,0,83,81,1,0,0,0,83,84,1,0,0,0],
  [84,3,1,0,0,0,85,83,1,0,0,0,86,87,7,0]]

/-- `BooleanExpressionParser.java:1343-1362`. -/
def parserATN3 : List (List Nat) := [
  [0,0,87,5,1,0,0,0,88,89,7,1,0,0],
  [89,7,1,0,0,0,90,91,7,2,0,0,91,9,1,0],
  [0,0,92,96,5,33,0,0,93,95,5,40,0,0,94,93,1,0],
  [0,0,95,98,1,0,0,0,96,94,1,0,0,0,96,97,1],
  [0,0,0,97,99,1,0,0,0,98,96,1,0,0,0],
  [99,103,3,2,1,0,100,102,5,40,0,0,101,100,1,0,0,0],
  [102,105,1,0,0,0,103,101,1,0,0,0,103,104,1,0,0],
  [0,104,122,1,0,0,0,105,103,1,0,0,0,106,110,5,1],
  [0,0,107,109,5,40,0,0,108,107,1,0,0,0,109,112,1,0],
  [0,0,110,108,1,0,0,0,110,111,1,0,0,0,111,113,1],
  [0,0,0,112,110,1,0,0,0,113,117,3,2,1,0],
  [114,116,5,40,0,0,115,114,1,0,0,0,116,119,1,0,0,0],
  [117,115,1,0,0,0,117,118,1,0,0,0,118,121,1,0,0],
  [0,119,117,1,0,0,0,120,106,1,0,0,0,121,124,1,0],
  [0,0,122,120,1,0,0,0,122,123,1,0,0,0,123,125,1],
  [0,0,0,124,122,1,0,0,0,125,126,5,34,0,0,126,11],
  [1,0,0,0,127,128,7,3,0,0,128,13,1],
  [0,0,0,129,130,7,4,0,0,130,15,1],
  [0,0,0,131,141,5,37,0,0,132,141,5,35,0],
  [0,133,141,5,36,0,0,134,141,3,20,10,0]]

/-- `BooleanExpressionParser.java:1363-1372`. -/
def parserATN4 : List (List Nat) := [
  [135,141,5,41,0,0,136,141,5,44,0,0,137,141],
  [5,38,0,0,138,141,5,39,0,0,139,141,1],
  [0,0,0,140,131,1,0,0,0,140,132,1],
  [0,0,0,140,133,1,0,0,0,140,134,1],
  [0,0,0,140,135,1,0,0,0,140,136,1],
  [0,0,0,140,137,1,0,0,0,140,138,1],
  [0,0,0,140,139,1,0,0,0,141,17,1],
  [0,0,0,142,143,7,5,0,0,143,19,1],
  [0,0,0,144,145,7,6,0,0,145,21,1],
  [0,0,0,10,45,53,81,83,96,103,110,117,122,140]]

/-- The whole string. -/
def parserATN : List Nat :=
  List.flatten (parserATN0 ++ parserATN1 ++ parserATN2 ++ parserATN3 ++ parserATN4)

end BoolParser
