/-!
# The serialized automaton of `BooleanExpressionLexer.java`

Generated by `tools/atn.py` from `src/main/java/com/github/sidhant92/boolparser/parser/antlr/BooleanExpressionLexer.java:126-417`:
the UTF-16 units of the string constant `_serializedATN`, one list per line of the source.
-/

namespace BoolParser

/-- `BooleanExpressionLexer.java:126-145`. -/
def lexerATN0 : List (List Nat) := [
  [4,0,47,465,6,65535,65535,2,0,7,0,2,1],
  [7,1,2,2,7,2,2,3,7,3,2,4],
  [7,4,2,5,7,5,2,6,7,6,2,7],
  [7,7,2,8,7,8,2,9,7,9,2,10,7,10,2,11],
  [7,11,2,12,7,12,2,13,7,13,2,14,7,14,2],
  [15,7,15,2,16,7,16,2,17,7,17,2],
  [18,7,18,2,19,7,19,2,20,7,20,2],
  [21,7,21,2,22,7,22,2,23,7,23,2],
  [24,7,24,2,25,7,25,2,26,7,26,2],
  [27,7,27,2,28,7,28,2,29,7,29,2],
  [30,7,30,2,31,7,31,2,32,7,32,2,33,7],
  [33,2,34,7,34,2,35,7,35,2,36,7,36,2,37,7,37,2,38,7],
  [38,2,39,7,39,2,40,7,40,2,41,7,41,2,42,7,42,2,43,7],
  [43,2,44,7,44,2,45,7,45,2,46,7,46,2,47,7,47,2,48,7],
  [48,1,0,1,0,1,1,1,1,1,1,1,1],
  [3,1,106,8,1,1,2,1,2,1,2,1,2],
  [3,2,112,8,2,1,3,1,3,1,3,1,3],
  [1,3,1,3,1,3,1,3,3,3,122,8,3],
  [1,4,1,4,1,4,1,4,1,4,1,4],
  [3,4,130,8,4,1,5,1,5,1,5,1,5]]

/-- `BooleanExpressionLexer.java:146-165`. -/
def lexerATN1 : List (List Nat) := [
  [1,5,1,5,3,5,138,8,5,1,6,1,6],
  [1,6,1,6,1,6,1,6,1,6,1,6],
  [3,6,148,8,6,1,7,1,7,1,7,1,7],
  [1,7,1,7,1,7,1,7,1,7,1,7],
  [3,7,160,8,7,1,8,1,8,1,8,1,8,1,8,1],
  [8,1,8,1,8,1,8,1,8,1,8,1,8,1,8,1,8,1],
  [8,1,8,1,8,1,8,1,8,1,8,1,8,1,8,1,8,1],
  [8,3,8,186,8,8,1,9,1,9,1,9,1,9,1,9,1,9,1],
  [9,1,9,1,9,1,9,1,9,1,9,1,9,1,9,1,9,1],
  [9,1,9,1,9,1,9,1,9,1,9,1,9,1,9,1,9,3],
  [9,212,8,9,1,10,1,10,1,10,1,10,1,10,1,10,3,10,220],
  [8,10,1,11,1,11,1,11,1,11,1,11,1],
  [11,3,11,228,8,11,1,12,1,12,1,12,1,12,1],
  [12,1,12,3,12,236,8,12,1,13,1,13,1,13,1,13,1,13,1],
  [13,3,13,244,8,13,1,14,1,14,1,14,1,14,1],
  [14,1,14,1,14,1,14,3,14,254,8,14,1],
  [15,1,15,1,15,1,15,1,15,1,15,1],
  [15,1,15,3,15,264,8,15,1,16,1,16,1],
  [16,1,16,1,16,1,16,1,16,1,16,1],
  [16,1,16,1,16,1,16,3,16,278,8,16,1]]

/-- `BooleanExpressionLexer.java:166-185`. -/
def lexerATN2 : List (List Nat) := [
  [17,1,17,1,17,1,17,1,17,1,17,3],
  [17,286,8,17,1,18,1,18,1,18,1,18,1],
  [18,1,18,3,18,294,8,18,1,19,1,19,1],
  [19,1,19,1,19,1,19,1,19,1,19,1],
  [19,1,19,1,19,1,19,1,19,1,19,1],
  [19,1,19,1,19,1,19,1,19,1,19,1],
  [19,1,19,1,19,1,19,3,19,320,8,19,1],
  [20,1,20,1,21,1,21,1,22,1,22,1],
  [23,1,23,1,24,1,24,1,25,1,25,1],
  [26,1,26,1,26,1,27,1,27,1,28,1],
  [28,1,28,1,29,1,29,1,30,1,30,1],
  [30,1,31,1,31,1,32,1,32,1,33,1,33,1,34,4],
  [34,354,8,34,11,34,12,34,355,1,34,1,34,4,34,360,8,34,11],
  [34,12,34,361,1,35,1,35,1,35,4,35,367,8,35,11,35,12,35,368,1],
  [36,4,36,372,8,36,11,36,12,36,373,1,37,1,37,1,38,1,38,1,39],
  [4,39,381,8,39,11,39,12,39,382,1,39,1,39,1,40,1,40,3],
  [40,389,8,40,1,41,1,41,5,41,393,8,41,10,41,12,41,396,9,41,1,41,1,41],
  [1,42,1,42,5,42,402,8,42,10,42,12,42,405,9,42,1,42,1,42,1,43,1],
  [43,4,43,411,8,43,11,43,12,43,412,1,44,1,44,1,45,1,45,5,45,419],
  [8,45,10,45,12,45,422,9,45,1,45,1,45,1,46,1,46,5,46,428,8,46,10,46,12,46,431]]

/-- `BooleanExpressionLexer.java:186-205`. -/
def lexerATN3 : List (List Nat) := [
  [9,46,1,46,1,46,1,47,1,47,1,47,1,47,1,47,1,47,1,47,1],
  [47,1,47,1,47,1,47,1,48,1,48,1,48,1,48,1,48,1,48,1],
  [48,1,48,1,48,1,48,1,48,1,48,1,48,1,48,1,48,1,48,1],
  [48,1,48,1,48,1,48,4,394,403,420,429,0,49,1,1],
  [3,2,5,3,7,4,9,5,11,6,13,7,15],
  [8,17,9,19,10,21,11,23,12,25,13,27,14,29,15],
  [31,16,33,17,35,18,37,19,39,20,41,21,43,22,45,23,47,24],
  [49,25,51,26,53,27,55,28,57,29,59,30,61,31,63,32,65,33,67,34,69,35,71,36,73,37,75,38,77,39,79,40],
  [81,41,83,42,85,43,87,44,89,45,91,46,93,47,95,0,97,0,1,0,4,1,0,48,57,3,0],
  [9,10,12,13,32,32,2,0,46,46,95,95,3,0,48,57,65,90,97,122,495,0,1,1,0],
  [0,0,0,3,1,0,0,0,0,5,1,0],
  [0,0,0,7,1,0,0,0,0,9,1,0,0],
  [0,0,11,1,0,0,0,0,13,1,0,0,0],
  [0,15,1,0,0,0,0,17,1,0,0,0],
  [0,19,1,0,0,0,0,21,1,0,0,0],
  [0,23,1,0,0,0,0,25,1,0,0,0],
  [0,27,1,0,0,0,0,29,1,0,0,0],
  [0,31,1,0,0,0,0,33,1,0,0,0,0],
  [35,1,0,0,0,0,37,1,0,0,0,0,39,1],
  [0,0,0,0,41,1,0,0,0,0,43,1,0,0]]

/-- `BooleanExpressionLexer.java:206-225`. -/
def lexerATN4 : List (List Nat) := [
  [0,0,45,1,0,0,0,0,47,1,0,0,0,0],
  [49,1,0,0,0,0,51,1,0,0,0,0,53,1],
  [0,0,0,0,55,1,0,0,0,0,57,1,0,0],
  [0,0,59,1,0,0,0,0,61,1,0,0,0,0],
  [63,1,0,0,0,0,65,1,0,0,0,0,67,1],
  [0,0,0,0,69,1,0,0,0,0,71,1,0,0],
  [0,0,73,1,0,0,0,0,75,1,0,0,0,0],
  [77,1,0,0,0,0,79,1,0,0,0,0,81,1],
  [0,0,0,0,83,1,0,0,0,0,85,1,0,0],
  [0,0,87,1,0,0,0,0,89,1,0,0,0,0],
  [91,1,0,0,0,0,93,1,0,0,0,1,99,1],
  [0,0,0,3,105,1,0,0,0,5,111,1,0,0],
  [0,7,121,1,0,0,0,9,129,1,0,0,0],
  [11,137,1,0,0,0,13,147,1,0,0,0,15],
  [159,1,0,0,0,17,185,1,0,0,0,19],
  [211,1,0,0,0,21,219,1,0,0,0,23],
  [227,1,0,0,0,25,235,1,0,0,0,27],
  [243,1,0,0,0,29,253,1,0,0,0,31],
  [263,1,0,0,0,33,277,1,0,0,0,35,285,1],
  [0,0,0,37,293,1,0,0,0,39,319,1,0]]

/-- `BooleanExpressionLexer.java:226-245`. -/
def lexerATN5 : List (List Nat) := [
  [0,0,41,321,1,0,0,0,43,323,1,0,0,0],
  [45,325,1,0,0,0,47,327,1,0,0,0,49,329],
  [1,0,0,0,51,331,1,0,0,0,53,333,1,0],
  [0,0,55,336,1,0,0,0,57,338,1,0,0,0],
  [59,341,1,0,0,0,61,343,1,0,0,0,63,346],
  [1,0,0,0,65,348,1,0,0,0,67,350,1,0],
  [0,0,69,353,1,0,0,0,71,363,1,0,0,0],
  [73,371,1,0,0,0,75,375,1,0,0,0,77,377],
  [1,0,0,0,79,380,1,0,0,0,81,388,1,0],
  [0,0,83,390,1,0,0,0,85,399,1,0,0,0],
  [87,410,1,0,0,0,89,414,1,0,0,0,91,416],
  [1,0,0,0,93,425,1,0,0,0,95,434,1,0],
  [0,0,97,445,1,0,0,0,99,100,5,44,0,0,100,2],
  [1,0,0,0,101,102,5,73,0,0,102,106,5,78,0,0,103,104,5],
  [105,0,0,104,106,5,110,0,0,105,101,1,0,0,0,105,103,1,0],
  [0,0,106,4,1,0,0,0,107,108,5,84,0,0,108,112,5],
  [79,0,0,109,110,5,116,0,0,110,112,5,111,0,0,111,107,1,0],
  [0,0,111,109,1,0,0,0,112,6,1,0,0,0],
  [113,114,5,65,0,0,114,115,5,78,0,0,115,122,5,68,0,0,116,117,5],
  [97,0,0,117,118,5,110,0,0,118,122,5,100,0,0,119,120,5,38,0]]

/-- `BooleanExpressionLexer.java:246-265`. -/
def lexerATN6 : List (List Nat) := [
  [0,120,122,5,38,0,0,121,113,1,0,0,0,121,116,1,0,0],
  [0,121,119,1,0,0,0,122,8,1,0,0,0,123,124,5,79,0],
  [0,124,130,5,82,0,0,125,126,5,111,0,0,126,130,5,114,0],
  [0,127,128,5,124,0,0,128,130,5,124,0,0,129],
  [123,1,0,0,0,129,125,1,0,0,0,129,127,1],
  [0,0,0,130,10,1,0,0,0,131,132,5,78],
  [0,0,132,133,5,79,0,0,133,138,5,84,0,0],
  [134,135,5,110,0,0,135,136,5,111,0,0,136,138],
  [5,116,0,0,137,131,1,0,0,0,137,134,1],
  [0,0,0,138,12,1,0,0,0,139,140,5,84],
  [0,0,140,141,5,82,0,0,141,142,5,85,0,0],
  [142,148,5,69,0,0,143,144,5,116,0,0,144,145],
  [5,114,0,0,145,146,5,117,0,0,146,148,5,101],
  [0,0,147,139,1,0,0,0,147,143,1,0],
  [0,0,148,14,1,0,0,0,149,150,5,70,0],
  [0,150,151,5,65,0,0,151,152,5,76,0,0,152],
  [153,5,83,0,0,153,160,5,69,0,0,154,155,5],
  [102,0,0,155,156,5,97,0,0,156,157,5,108,0],
  [0,157,158,5,115,0,0,158,160,5,101,0,0,159],
  [149,1,0,0,0,159,154,1,0,0,0,160]]

/-- `BooleanExpressionLexer.java:266-285`. -/
def lexerATN7 : List (List Nat) := [
  [16,1,0,0,0,161,162,5,67,0,0,162,163],
  [5,79,0,0,163,164,5,78,0,0,164,165,5,84],
  [0,0,165,166,5,65,0,0,166,167,5,73,0,0],
  [167,168,5,78,0,0,168,169,5,83,0,0,169,170],
  [5,95,0,0,170,171,5,65,0,0,171,172,5,76],
  [0,0,172,186,5,76,0,0,173,174,5,99,0,0],
  [174,175,5,111,0,0,175,176,5,110,0,0,176,177],
  [5,116,0,0,177,178,5,97,0,0,178,179,5,105],
  [0,0,179,180,5,110,0,0,180,181,5,115,0,0],
  [181,182,5,95,0,0,182,183,5,97,0,0,183,184],
  [5,108,0,0,184,186,5,108,0,0,185,161,1,0],
  [0,0,185,173,1,0,0,0,186,18,1,0],
  [0,0,187,188,5,67,0,0,188,189,5,79,0,0],
  [189,190,5,78,0,0,190,191,5,84,0,0,191,192],
  [5,65,0,0,192,193,5,73,0,0,193,194,5,78],
  [0,0,194,195,5,83,0,0,195,196,5,95,0,0],
  [196,197,5,65,0,0,197,198,5,78,0,0,198,212],
  [5,89,0,0,199,200,5,99,0,0,200,201,5,111],
  [0,0,201,202,5,110,0,0,202,203,5,116,0,0],
  [203,204,5,97,0,0,204,205,5,105,0,0,205,206]]

/-- `BooleanExpressionLexer.java:286-305`. -/
def lexerATN8 : List (List Nat) := [
  [5,110,0,0,206,207,5,115,0,0,207,208,5,95],
  [0,0,208,209,5,97,0,0,209,210,5,110,0,0],
  [210,212,5,121,0,0,211,187,1,0,0,0,211],
  [199,1,0,0,0,212,20,1,0,0,0,213],
  [214,5,77,0,0,214,215,5,73,0,0,215,220,5],
  [78,0,0,216,217,5,109,0,0,217,218,5,105,0],
  [0,218,220,5,110,0,0,219,213,1,0,0,0],
  [219,216,1,0,0,0,220,22,1,0,0,0],
  [221,222,5,77,0,0,222,223,5,65,0,0,223,228],
  [5,88,0,0,224,225,5,109,0,0,225,226,5,97],
  [0,0,226,228,5,120,0,0,227,221,1,0,0],
  [0,227,224,1,0,0,0,228,24,1,0,0],
  [0,229,230,5,65,0,0,230,231,5,86,0,0,231],
  [236,5,71,0,0,232,233,5,97,0,0,233,234,5],
  [118,0,0,234,236,5,103,0,0,235,229,1,0,0],
  [0,235,232,1,0,0,0,236,26,1,0,0],
  [0,237,238,5,83,0,0,238,239,5,85,0,0,239],
  [244,5,77,0,0,240,241,5,115,0,0,241,242,5],
  [117,0,0,242,244,5,109,0,0,243,237,1,0,0],
  [0,243,240,1,0,0,0,244,28,1,0,0]]

/-- `BooleanExpressionLexer.java:306-325`. -/
def lexerATN9 : List (List Nat) := [
  [0,245,246,5,77,0,0,246,247,5,69,0,0,247],
  [248,5,65,0,0,248,254,5,78,0,0,249,250,5],
  [109,0,0,250,251,5,101,0,0,251,252,5,97,0],
  [0,252,254,5,110,0,0,253,245,1,0,0,0],
  [253,249,1,0,0,0,254,30,1,0,0,0],
  [255,256,5,77,0,0,256,257,5,79,0,0,257,258],
  [5,68,0,0,258,264,5,69,0,0,259,260,5,109],
  [0,0,260,261,5,111,0,0,261,262,5,100,0,0],
  [262,264,5,101,0,0,263,255,1,0,0,0,263],
  [259,1,0,0,0,264,32,1,0,0,0,265,266],
  [5,77,0,0,266,267,5,69,0,0,267,268,5,68],
  [0,0,268,269,5,73,0,0,269,270,5,65,0,0],
  [270,278,5,78,0,0,271,272,5,109,0,0,272,273],
  [5,101,0,0,273,274,5,100,0,0,274,275,5,105],
  [0,0,275,276,5,97,0,0,276,278,5,110,0,0],
  [277,265,1,0,0,0,277,271,1,0,0,0],
  [278,34,1,0,0,0,279,280,5,76,0,0,280],
  [281,5,69,0,0,281,286,5,78,0,0,282,283,5],
  [108,0,0,283,284,5,101,0,0,284,286,5,110,0],
  [0,285,279,1,0,0,0,285,282,1,0,0]]

/-- `BooleanExpressionLexer.java:326-345`. -/
def lexerATN10 : List (List Nat) := [
  [0,286,36,1,0,0,0,287,288,5,73,0,0,288],
  [289,5,78,0,0,289,294,5,84,0,0,290,291,5],
  [105,0,0,291,292,5,110,0,0,292,294,5,116,0],
  [0,293,287,1,0,0,0,293,290,1,0,0],
  [0,294,38,1,0,0,0,295,296,5,68,0,0,296],
  [297,5,65,0,0,297,298,5,89,0,0,298,299,5],
  [83,0,0,299,300,5,95,0,0,300,301,5,69,0],
  [0,301,302,5,76,0,0,302,303,5,65,0,0,303],
  [304,5,80,0,0,304,305,5,83,0,0,305,306,5],
  [69,0,0,306,320,5,68,0,0,307,308,5,100,0],
  [0,308,309,5,97,0,0,309,310,5,121,0,0,310],
  [311,5,115,0,0,311,312,5,95,0,0,312,313,5],
  [101,0,0,313,314,5,108,0,0,314,315,5,97,0],
  [0,315,316,5,112,0,0,316,317,5,115,0,0,317],
  [318,5,101,0,0,318,320,5,100,0,0,319,295,1],
  [0,0,0,319,307,1,0,0,0,320,40,1,0],
  [0,0,321,322,5,43,0,0,322,42,1,0,0,0],
  [323,324,5,45,0,0,324,44,1,0,0,0,325,326],
  [5,42,0,0,326,46,1,0,0,0,327,328,5,47],
  [0,0,328,48,1,0,0,0,329,330,5,37,0,0]]

/-- `BooleanExpressionLexer.java:346-365`. -/
def lexerATN11 : List (List Nat) := [
  [330,50,1,0,0,0,331,332,5,94,0,0,332,52],
  [1,0,0,0,333,334,5,33,0,0,334,335,5],
  [61,0,0,335,54,1,0,0,0,336,337,5,62,0],
  [0,337,56,1,0,0,0,338,339,5,62,0,0,339],
  [340,5,61,0,0,340,58,1,0,0,0,341,342,5],
  [60,0,0,342,60,1,0,0,0,343,344,5,60,0],
  [0,344,345,5,61,0,0,345,62,1,0,0,0,346],
  [347,5,61,0,0,347,64,1,0,0,0,348,349,5],
  [40,0,0,349,66,1,0,0,0,350,351,5,41,0],
  [0,351,68,1,0,0,0,352,354,7,0,0,0],
  [353,352,1,0,0,0,354,355,1,0,0,0],
  [355,353,1,0,0,0,355,356,1,0,0,0],
  [356,357,1,0,0,0,357,359,5,46,0,0,358],
  [360,7,0,0,0,359,358,1,0,0,0,360],
  [361,1,0,0,0,361,359,1,0,0,0,361],
  [362,1,0,0,0,362,70,1,0,0,0,363,366],
  [7,0,0,0,364,365,5,46,0,0,365,367,3],
  [73,36,0,366,364,1,0,0,0,367,368,1,0,0],
  [0,368,366,1,0,0,0,368,369,1,0,0],
  [0,369,72,1,0,0,0,370,372,7,0,0,0]]

/-- `BooleanExpressionLexer.java:366-385`. -/
def lexerATN12 : List (List Nat) := [
  [371,370,1,0,0,0,372,373,1,0,0,0],
  [373,371,1,0,0,0,373,374,1,0,0,0],
  [374,74,1,0,0,0,375,376,3,95,47,0,376,76,1],
  [0,0,0,377,378,3,97,48,0,378,78,1,0,0],
  [0,379,381,7,1,0,0,380,379,1,0,0],
  [0,381,382,1,0,0,0,382,380,1,0,0],
  [0,382,383,1,0,0,0,383,384,1,0,0],
  [0,384,385,6,39,0,0,385,80,1,0,0,0],
  [386,389,3,83,41,0,387,389,3,85,42,0,388,386,1],
  [0,0,0,388,387,1,0,0,0,389,82,1,0],
  [0,0,390,394,5,39,0,0,391,393,9,0,0],
  [0,392,391,1,0,0,0,393,396,1,0,0],
  [0,394,395,1,0,0,0,394,392,1,0,0],
  [0,395,397,1,0,0,0,396,394,1,0,0],
  [0,397,398,5,39,0,0,398,84,1,0,0,0],
  [399,403,5,34,0,0,400,402,9,0,0,0,401],
  [400,1,0,0,0,402,405,1,0,0,0,403],
  [404,1,0,0,0,403,401,1,0,0,0,404],
  [406,1,0,0,0,405,403,1,0,0,0,406],
  [407,5,34,0,0,407,86,1,0,0,0,408,411]]

/-- `BooleanExpressionLexer.java:386-405`. -/
def lexerATN13 : List (List Nat) := [
  [3,89,44,0,409,411,7,2,0,0,410,408,1,0],
  [0,0,410,409,1,0,0,0,411,412,1,0],
  [0,0,412,410,1,0,0,0,412,413,1,0],
  [0,0,413,88,1,0,0,0,414,415,7,3,0],
  [0,415,90,1,0,0,0,416,420,5,39,0,0],
  [417,419,9,0,0,0,418,417,1,0,0,0,419],
  [422,1,0,0,0,420,421,1,0,0,0,420],
  [418,1,0,0,0,421,423,1,0,0,0,422],
  [420,1,0,0,0,423,424,5,39,0,0,424,92],
  [1,0,0,0,425,429,5,34,0,0,426,428,9],
  [0,0,0,427,426,1,0,0,0,428,431,1],
  [0,0,0,429,430,1,0,0,0,429,427,1],
  [0,0,0,430,432,1,0,0,0,431,429,1],
  [0,0,0,432,433,5,34,0,0,433,94,1,0],
  [0,0,434,435,7,0,0,0,435,436,7,0],
  [0,0,436,437,7,0,0,0,437,438,7,0],
  [0,0,438,439,5,45,0,0,439,440,7,0,0],
  [0,440,441,7,0,0,0,441,442,5,45,0,0],
  [442,443,7,0,0,0,443,444,7,0,0,0],
  [444,96,1,0,0,0,445,446,7,0,0,0,446]]

/-- `BooleanExpressionLexer.java:406-417`. -/
def lexerATN14 : List (List Nat) := [
  [447,7,0,0,0,447,448,7,0,0,0,448],
  [449,7,0,0,0,449,450,5,45,0,0,450,451],
  [7,0,0,0,451,452,7,0,0,0,452,453],
  [5,45,0,0,453,454,7,0,0,0,454,455,7],
  [0,0,0,455,456,5,32,0,0,456,457,7,0],
  [0,0,457,458,7,0,0,0,458,459,5,58,0],
  [0,459,460,7,0,0,0,460,461,7,0,0],
  [0,461,462,5,58,0,0,462,463,7,0,0,0],
  [463,464,7,0,0,0,464,98,1,0,0,0,32,0],
  [105,111,121,129,137,147,159,185,211,219,227,235,243,253],
  [263,277,285,293,319,355,361,368,373,382,388,394],
  [403,410,412,420,429,1,6,0,0]]

/-- The whole string. -/
def lexerATN : List Nat :=
  List.flatten (lexerATN0 ++ lexerATN1 ++ lexerATN2 ++ lexerATN3 ++ lexerATN4 ++ lexerATN5 ++ lexerATN6 ++ lexerATN7 ++ lexerATN8 ++ lexerATN9 ++ lexerATN10 ++ lexerATN11 ++ lexerATN12 ++ lexerATN13 ++ lexerATN14)

end BoolParser
