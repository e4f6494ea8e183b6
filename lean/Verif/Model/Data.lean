import Verif.Model.Database

/-! The stored solutions, except those of `problem_28_12_6_4`.

Each matrix is written as its rows, each row as a binary number with the entry of column 0 first. -/

namespace TDS

namespace Database

/-- Row of width `v` from its binary number (/repo/srg/database/problem_*.py, one row of `solutions`). -/
def bitRow (v n : Nat) : Vec :=
  (List.range v).map (fun j => if n.testBit (v - 1 - j) then 1 else 0)

/-- Matrix from binary numbers (/repo/srg/database/problem_*.py, one matrix of `solutions`). -/
def bitMat (v : Nat) (rows : List Nat) : Mat := rows.map (bitRow v)

/-- `solutions` of /repo/srg/database/problem_10_3_0_1.py. -/
def p_10_3_0_1 : List (List Nat) :=
  [[0b0111000000, 0b1000110000, 0b1000001100, 0b1000000011, 0b0100001010, 0b0100000101,
    0b0010100001, 0b0010010010, 0b0001100100, 0b0001011000]]

/-- `solutions` of /repo/srg/database/problem_10_6_3_4.py. -/
def p_10_6_3_4 : List (List Nat) :=
  [[0b0111111000, 0b1011100110, 0b1100011110, 0b1100110101, 0b1101001011, 0b1011001101,
    0b1010110011, 0b0111010011, 0b0110101101, 0b0001111110],
   [0b0111111000, 0b1011100110, 0b1101010101, 0b1110001011, 0b1100011110, 0b1010101101,
    0b1001110011, 0b0110110011, 0b0101101101, 0b0011011110]]

/-- `solutions` of /repo/srg/database/problem_12_6_0_6.py. -/
def p_12_6_0_6 : List (List Nat) :=
  [[0b011111100000, 0b100000011111, 0b100000011111, 0b100000011111, 0b100000011111,
    0b100000011111, 0b100000011111, 0b011111100000, 0b011111100000, 0b011111100000,
    0b011111100000, 0b011111100000]]

/-- `solutions` of /repo/srg/database/problem_13_6_2_3.py. -/
def p_13_6_2_3 : List (List Nat) :=
  [[0b0111111000000, 0b1011000111000, 0b1100100100110, 0b1100010010101, 0b1010001001101,
    0b1001001100011, 0b1000110011010, 0b0110010001011, 0b0101001001110, 0b0100101110001,
    0b0011100010011, 0b0010011110100, 0b0001110101100],
   [0b0111111000000, 0b1011000111000, 0b1100100100110, 0b1100010010101, 0b1010001010011,
    0b1001001001110, 0b1000110101001, 0b0110001001101, 0b0101100001011, 0b0100011110010,
    0b0011010100011, 0b0010110011100, 0b0001101110100]]

/-- `solutions` of /repo/srg/database/problem_15_6_1_3.py. -/
def p_15_6_1_3 : List (List Nat) :=
  [[0b011111100000000, 0b101000011110000, 0b110000000001111, 0b100010011001100,
    0b100100000110011, 0b100000100111100, 0b100001011000011, 0b010100100101010,
    0b010100100010101, 0b010011010000101, 0b010011001001010, 0b001101010010001,
    0b001101001100010, 0b001010110010100, 0b001010101101000],
   [0b011111100000000, 0b101000011110000, 0b110000000001111, 0b100010011001100,
    0b100100000110011, 0b100000111000011, 0b100001000111100, 0b010101000101010,
    0b010101000010101, 0b010010110000101, 0b010010101001010, 0b001100110010001,
    0b001100101100010, 0b001011010010100, 0b001011001101000]]

/-- `solutions` of /repo/srg/database/problem_15_8_4_4.py. -/
def p_15_8_4_4 : List (List Nat) :=
  [[0b011111111000000, 0b101111000111000, 0b110000111111000, 0b110011100100110,
    0b110101010010101, 0b110110001001011, 0b101100011100110, 0b101010101010101,
    0b101001110001011, 0b011100100011110, 0b011010010101101, 0b011001001110011,
    0b000110110110011, 0b000101101101101, 0b000011011011110],
   [0b011111111000000, 0b101111000111000, 0b110110100100110, 0b111010010010101,
    0b111100001001011, 0b110000111111000, 0b101001011100110, 0b100101101010101,
    0b100011110001011, 0b011001100011110, 0b010101010101101, 0b010011001110011,
    0b001100110110011, 0b001010101101101, 0b000110011011110]]

/-- `solutions` of /repo/srg/database/problem_16_10_6_6.py. -/
def p_16_10_6_6 : List (List Nat) :=
  [[0b0111111111100000, 0b1011111100011100, 0b1101110011011010, 0b1110001111011001,
    0b1110011010110110, 0b1110100101101110, 0b1101100110110101, 0b1101011001101101,
    0b1011101001110011, 0b1011010110101011, 0b1000111111000111, 0b0111101010001111,
    0b0111010101010111, 0b0100111100111011, 0b0010110011111101, 0b0001001111111110],
   [0b0111111111100000, 0b1011111100011100, 0b1101110011011010, 0b1110101010110110,
    0b1111000101101110, 0b1110001111011001, 0b1101010110110101, 0b1100111001101101,
    0b1011011001110011, 0b1010110110101011, 0b1001101111000111, 0b0111011010001111,
    0b0110110101010111, 0b0101101100111011, 0b0011100011111101, 0b0000011111111110]]

/-- `solutions` of /repo/srg/database/problem_16_5_0_2.py. -/
def p_16_5_0_2 : List (List Nat) :=
  [[0b0111110000000000, 0b1000001111000000, 0b1000001000111000, 0b1000000100100110,
    0b1000000010010101, 0b1000000001001011, 0b0110000000000111, 0b0101000000011001,
    0b0100100000101010, 0b0100010000110100, 0b0011000011000001, 0b0010100101000010,
    0b0010010110000100, 0b0001101001001000, 0b0001011010010000, 0b0000111100100000]]

/-- `solutions` of /repo/srg/database/problem_16_6_2_2.py. -/
def p_16_6_2_2 : List (List Nat) :=
  [[0b0111111000000000, 0b1011000111000000, 0b1100100100110000, 0b1100010010001100,
    0b1010001000101010, 0b1001001000010101, 0b1000110001000011, 0b0110000001010110,
    0b0101000001101001, 0b0100001110000011, 0b0010100010011001, 0b0010010100100101,
    0b0001100010100110, 0b0001010100011010, 0b0000101101001100, 0b0000011011110000],
   [0b0111111000000000, 0b1011000111000000, 0b1101000000111000, 0b1110000000000111,
    0b1000011100100100, 0b1000101010010010, 0b1000110001001001, 0b0100100011100100,
    0b0100010101010010, 0b0100001110001001, 0b0010100100011100, 0b0010010010101010,
    0b0010001001110001, 0b0001100100100011, 0b0001010010010101, 0b0001001001001110]]

/-- `solutions` of /repo/srg/database/problem_16_9_4_6.py. -/
def p_16_9_4_6 : List (List Nat) :=
  [[0b0111111111000000, 0b1011110000111100, 0b1100001110111010, 0b1100001101110101,
    0b1100010011110011, 0b1100101100001111, 0b1011010001101011, 0b1011010010010111,
    0b1010100101101101, 0b1001101010011110, 0b0111101010000111, 0b0111100101001011,
    0b0110011011010101, 0b0101010111101010, 0b0010111101110100, 0b0001111110111000],
   [0b0111111111000000, 0b1011110000111100, 0b1100001110111010, 0b1100001101110101,
    0b1100010011110011, 0b1100101100001111, 0b1011010010100111, 0b1011010001011011,
    0b1010101001011101, 0b1001100110101110, 0b0111101001001011, 0b0111100110000111,
    0b0110010111100101, 0b0101011011011010, 0b0010111101110100, 0b0001111110111000],
   [0b0111111111000000, 0b1011110000111100, 0b1100001110111010, 0b1100001101110101,
    0b1100011100001111, 0b1100100011110011, 0b1011100001101011, 0b1011100010010111,
    0b1010010101101101, 0b1001011010011110, 0b0111011010000111, 0b0111010101001011,
    0b0110101011010101, 0b0101100111101010, 0b0010111101110100, 0b0001111110111000],
   [0b0111111111000000, 0b1011110000111100, 0b1100001110111010, 0b1100001101110101,
    0b1100011100001111, 0b1100100011110011, 0b1011100010100111, 0b1011100001011011,
    0b1010011001011101, 0b1001010110101110, 0b0111011001001011, 0b0111010110000111,
    0b0110100111100101, 0b0101101011011010, 0b0010111101110100, 0b0001111110111000],
   [0b0111111111000000, 0b1011110000111100, 0b1100001110111010, 0b1100101001110011,
    0b1101000110001111, 0b1100000111110101, 0b1011000101101101, 0b1010111000010111,
    0b1010110001101011, 0b1001011010011110, 0b0111011010000111, 0b0111010101001011,
    0b0110101011010101, 0b0100111101101010, 0b0011100111110100, 0b0001111110111000],
   [0b0111111111000000, 0b1011110000111100, 0b1100001110111010, 0b1100101100100111,
    0b1101000011011011, 0b1100001101011101, 0b1011010001110011, 0b1011010010001111,
    0b1010100101110101, 0b1000111010101110, 0b0111001011001101, 0b0110111010000111,
    0b0110110101100011, 0b0101010111110010, 0b0011101101011100, 0b0001111110111000],
   [0b0111111111000000, 0b1011110000111100, 0b1100001110111010, 0b1100101100100111,
    0b1101000011011011, 0b1100001101011101, 0b1011010010010111, 0b1011010001101011,
    0b1010101001101101, 0b1000110110110110, 0b0111000111010101, 0b0110111001100011,
    0b0110110110000111, 0b0101011011101010, 0b0011101101011100, 0b0001111110111000],
   [0b0111111111000000, 0b1011110000111100, 0b1101001100110011, 0b1110000011001111,
    0b1100001011111010, 0b1100000111110101, 0b1010100110101101, 0b1010011001011110,
    0b1001111000010111, 0b1001110100101011, 0b0110111001000111, 0b0110110110001011,
    0b0101101101010101, 0b0101011110101010, 0b0011100111110100, 0b0011011011111000],
   [0b0111111111000000, 0b1011110000111100, 0b1101001100110011, 0b1110000011001111,
    0b1100001110101110, 0b1100001101011101, 0b1010110001101011, 0b1010110010010111,
    0b1001100101111001, 0b1001011010110110, 0b0110101011010101, 0b0110010111101010,
    0b0101111010010011, 0b0101110101100011, 0b0011101101011100, 0b0011011110101100],
   [0b0111111111000000, 0b1011110000111100, 0b1101001100110011, 0b1110000011001111,
    0b1100001110101110, 0b1100001101011101, 0b1010110010011011, 0b1010110001100111,
    0b1001101001110101, 0b1001010110111010, 0b0110100111011001, 0b0110011011100110,
    0b0101111001100011, 0b0101110110010011, 0b0011101101011100, 0b0011011110101100],
   [0b0111111111000000, 0b1011110000111100, 0b1101001100110011, 0b1110000011001111,
    0b1100011010101011, 0b1100100101010111, 0b1010100011110110, 0b1010010011111001,
    0b1001101100011101, 0b1001011100101110, 0b0110101101001101, 0b0110011110001110,
    0b0101100111110010, 0b0101011011110001, 0b0011111001011001, 0b0011110110100110],
   [0b0111111111000000, 0b1011110000111100, 0b1101001100110011, 0b1110000011001111,
    0b1100011010101011, 0b1100100101010111, 0b1010100101101110, 0b1010011010011101,
    0b1001100101111001, 0b1001011010110110, 0b0110101011010101, 0b0110010111101010,
    0b0101101110010110, 0b0101011101101001, 0b0011111001011001, 0b0011110110100110],
   [0b0111111111000000, 0b1011110000111100, 0b1101001100110011, 0b1110000011001111,
    0b1100011010101011, 0b1100100101010111, 0b1010100110011110, 0b1010011001101101,
    0b1001101001110101, 0b1001010110111010, 0b0110100111011001, 0b0110011011100110,
    0b0101101101100110, 0b0101011110011001, 0b0011111001011001, 0b0011110110100110]]

/-- `solutions` of /repo/srg/database/problem_17_8_3_4.py. -/
def p_17_8_3_4 : List (List Nat) :=
  [[0b01111111100000000, 0b10111000011110000, 0b11000110011001100, 0b11000001110101010,
    0b11000101000110101, 0b10101000110000111, 0b10100001101011001, 0b10011010000011110,
    0b10010110001100011, 0b01110100000011011, 0b01100010100110110, 0b01011000101001101,
    0b01001011011000011, 0b00110011010100101, 0b00101101001101010, 0b00010101111010100,
    0b00001110110111000],
   [0b01111111100000000, 0b10111000011110000, 0b11000110011001100, 0b11000001110101010,
    0b11000101001010011, 0b10101000100011110, 0b10100001101100101, 0b10011010010000111,
    0b10010110000111001, 0b01110001000011101, 0b01101010000101011, 0b01010010101010110,
    0b01001100110100101, 0b00110100111000011, 0b00100111010110010, 0b00011101001101100,
    0b00001011111011000],
   [0b01111111100000000, 0b10111000011110000, 0b11000110011001100, 0b11000101000111010,
    0b11000001110100101, 0b10110000110001011, 0b10100001101010110, 0b10011010000011101,
    0b10001110001100011, 0b01101100000010111, 0b01100010100111001, 0b01011000101001110,
    0b01010011011000011, 0b00110101001100101, 0b00101011010101010, 0b00010110110110100,
    0b00001101111011000],
   [0b01111111100000000, 0b10111000011110000, 0b11000110011001100, 0b11000101000111010,
    0b11000010110100011, 0b10110000100101101, 0b10101001001001011, 0b10010010101010110,
    0b10001101010010101, 0b01101000100011110, 0b01100011000110101, 0b01011100001000111,
    0b01010001111001001, 0b00110110010010011, 0b00100101111100010, 0b00011011010101100,
    0b00001110101111000],
   [0b01111111100000000, 0b10111000011110000, 0b11000110011001100, 0b11000101010100011,
    0b11000001101011010, 0b10110000100101110, 0b10100001110010101, 0b10011010001000111,
    0b10001110000111001, 0b01110010000011011, 0b01101001000101101, 0b01010100101010101,
    0b01001010110100110, 0b00101100111000011, 0b00100111001110010, 0b00011101010011100,
    0b00010011111101000],
   [0b01111111100000000, 0b10111000011110000, 0b11000110011001100, 0b11000101010100011,
    0b11000010100111010, 0b10110000101001011, 0b10101001000101101, 0b10010010110010101,
    0b10001101001010110, 0b01110001000011110, 0b01100100100110101, 0b01011010001000111,
    0b01001001111001001, 0b00101110010010011, 0b00100011111100010, 0b00011100110101100,
    0b00010111001111000]]

/-- `solutions` of /repo/srg/database/problem_21_10_4_5.py. -/
def p_21_10_4_5 : List (List Nat) :=
  []

/-- `solutions` of /repo/srg/database/problem_21_10_5_4.py. -/
def p_21_10_5_4 : List (List Nat) :=
  [[0b011111111110000000000, 0b101111100001111000000, 0b110000011111111000000,
    0b110011110001000111000, 0b110101101000100100110, 0b110110100100010010101,
    0b110111000010001001011, 0b101100001111000111000, 0b101010010110100100110,
    0b101001011010010010101, 0b101000111100001001011, 0b011100010000111111000,
    0b011010001001011100110, 0b011001000101101010101, 0b011000100011110001011,
    0b000110011001100011110, 0b000101010101010101101, 0b000100110011001110011,
    0b000011001100110110011, 0b000010101010101101101, 0b000001100110011011110],
   [0b011111111110000000000, 0b101111100001111000000, 0b110111010001000111000,
    0b111011001000100100110, 0b111101000100010010101, 0b111110000010001001011,
    0b110000011111111000000, 0b101000101111000111000, 0b100100110110100100110,
    0b100010111010010010101, 0b100001111100001001011, 0b011000110000111111000,
    0b010100101001011100110, 0b010010100101101010101, 0b010001100011110001011,
    0b001100011001100011110, 0b001010010101010101101, 0b001001010011001110011,
    0b000110001100110110011, 0b000101001010101101101, 0b000011000110011011110]]

/-- `solutions` of /repo/srg/database/problem_25_12_5_6.py. -/
def p_25_12_5_6 : List (List Nat) :=
  [[0b0111111111111000000000000, 0b1011111000000111111000000, 0b1100000111100111100110000,
    0b1100000110011110011001100, 0b1100011000011001100111100, 0b1100101101000100010101011,
    0b1100110010100010001010111, 0b1011010010100001010101110, 0b1011001101000000101011101,
    0b1010010010011100110010011, 0b1010001100011011001100011, 0b1001100001101011010011001,
    0b1001100001110100101100110, 0b0111010001001010001111010, 0b0111001000110100010110101,
    0b0110100100110000111011010, 0b0110100011001001011100101, 0b0101010101010011100000111,
    0b0101001010101101100001011, 0b0010110100101110100001101, 0b0010101011010111000001110,
    0b0001110110010101001110001, 0b0001101110001010110110010, 0b0000011101101101011010100,
    0b0000011011110010111101000]]

/-- `solutions` of /repo/srg/database/problem_25_8_3_2.py. -/
def p_25_8_3_2 : List (List Nat) :=
  [[0b0111111110000000000000000, 0b1011100001111000000000000, 0b1101100000000111100000000,
    0b1110100000000000011110000, 0b1111000000000000000001111, 0b1000001111000100010001000,
    0b1000010110100010001000100, 0b1000011010010001000100010, 0b1000011100001000100010001,
    0b0100010000111100010001000, 0b0100001001011010001000100, 0b0100000101101001000100010,
    0b0100000011110000100010001, 0b0010010001000011110001000, 0b0010001000100101101000100,
    0b0010000100010110100100010, 0b0010000010001111000010001, 0b0001010001000100001111000,
    0b0001001000100010010110100, 0b0001000100010001011010010, 0b0001000010001000111100001,
    0b0000110001000100010000111, 0b0000101000100010001001011, 0b0000100100010001000101101,
    0b0000100010001000100011110]]

/-- `solutions` of /repo/srg/database/problem_26_10_3_4.py. -/
def p_26_10_3_4 : List (List Nat) :=
  [[0b01111111111000000000000000, 0b10111000000111111000000000, 0b11000110000110000111100000,
    0b11000001100001100110011000, 0b11000000011000011001111000, 0b10100000011001100101000110,
    0b10100001010100010010010101, 0b10010010100000011100100110, 0b10010001001110000001001011,
    0b10001110000001001010001011, 0b10001100100010100000110101, 0b01100010100000101001001101,
    0b01100000101001010010100011, 0b01010100010010010100001101, 0b01010100001100001010010110,
    0b01001011000011000001010110, 0b01001001010100100100100011, 0b00110101000001001001110001,
    0b00110010010010100000111010, 0b00101100100100010100011010, 0b00101001001010001110001100,
    0b00011010001000110111000001, 0b00011000110101000011100100, 0b00000111001101110000101000,
    0b00000101110010111011000000, 0b00000010111111001100010000]]

/-- `solutions` of /repo/srg/database/problem_27_10_1_5.py. -/
def p_27_10_1_5 : List (List Nat) :=
  [[0b011111111110000000000000000, 0b101000000001111111100000000, 0b110000000000000000011111111,
    0b100010000001111000011110000, 0b100100000000000111100001111, 0b100000100001100110011001100,
    0b100001000000011001100110011, 0b100000001001010101010101010, 0b100000010000101010101010101,
    0b100000000010110100110010110, 0b100000000101001011001101001, 0b010101010010000000100010111,
    0b010101001100000001000101011, 0b010100110100000010001001101, 0b010100101010000100010001110,
    0b010011010100001000001110001, 0b010011001010010000010110010, 0b010010110010100000011010100,
    0b010010101101000000011101000, 0b001101010100001011100000001, 0b001101001010010101100000010,
    0b001100110010100110100000100, 0b001100101101000111000001000, 0b001011010010111000100010000,
    0b001011001101011001000100000, 0b001010110101101010001000000, 0b001010101011110100010000000],
   [0b011111111110000000000000000, 0b101000000001111111100000000, 0b110000000000000000011111111,
    0b100010000001111000011110000, 0b100100000000000111100001111, 0b100000100001100110011001100,
    0b100001000000011001100110011, 0b100000001001010101010101010, 0b100000010000101010101010101,
    0b100000000011001011001101001, 0b100000000100110100110010110, 0b010101010100000000100010111,
    0b010101001010000001000101011, 0b010100110010000010001001101, 0b010100101100000100010001110,
    0b010011010010001000001110001, 0b010011001100010000010110010, 0b010010110100100000011010100,
    0b010010101011000000011101000, 0b001101010010001011100000001, 0b001101001100010101100000010,
    0b001100110100100110100000100, 0b001100101011000111000001000, 0b001011010100111000100010000,
    0b001011001011011001000100000, 0b001010110011101010001000000, 0b001010101101110100010000000]]

/-- `solutions` of /repo/srg/database/problem_29_14_6_7.py. -/
def p_29_14_6_7 : List (List Nat) :=
  []

/-- `solutions` of /repo/srg/database/problem_4_2_0_2.py. -/
def p_4_2_0_2 : List (List Nat) :=
  [[0b0110, 0b1001, 0b1001, 0b0110]]

/-- `solutions` of /repo/srg/database/problem_5_2_0_1.py. -/
def p_5_2_0_1 : List (List Nat) :=
  [[0b01100, 0b10010, 0b10001, 0b01001, 0b00110]]

end Database

end TDS
