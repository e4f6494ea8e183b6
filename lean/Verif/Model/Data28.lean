import Verif.Model.Database

/-! The stored solutions of `problem_28_12_6_4`.

Each matrix is written as its rows, each row as a binary number with the entry of column 0 first. -/

namespace TDS

namespace Database

/-- `solutions` of /repo/srg/database/problem_28_12_6_4.py, entries 0 to 22. -/
def p_28_12_6_4_0 : List (List Nat) :=
  [[0b0111111111111000000000000000, 0b1011111100000111110000000000,
    0b1100000011111111110000000000, 0b1100111110000100001111000000,
    0b1101011101000010001000111000, 0b1101101100100001000100100110,
    0b1101110100010000100010010101, 0b1101111000001000010001001011,
    0b1011000001111100001111000000, 0b1010100010111010001000111000,
    0b1010010011011001000100100110, 0b1010001011101000100010010101,
    0b1010000111110000010001001011, 0b0111000010000011111111000000,
    0b0110100001000101111000111000, 0b0110010000100110110100100110,
    0b0110001000010111010010010101, 0b0110000100001111100001001011,
    0b0001100011000110000111111000, 0b0001010010100101001011100110,
    0b0001001010010100101101010101, 0b0001000110001100011110001011,
    0b0000110001100011001100011110, 0b0000101001010010101010101101,
    0b0000100101001010011001110011, 0b0000011000110001100110110011,
    0b0000010100101001010101101101, 0b0000001100011000110011011110],
   [0b0111111111111000000000000000, 0b1011111100000111110000000000,
    0b1101000011110111101000000000, 0b1110110011000110000111000000,
    0b1101011100001100000110110000, 0b1101101110000000010101001100,
    0b1100110100101001010000101010, 0b1100111000011000110000010101,
    0b1011010001110000001101001100, 0b1011000010111010000011000011,
    0b1010001011011001001000101010, 0b1010000111101000101000010101,
    0b1000101101110000000010110011, 0b0111100000000011101110110000,
    0b0111000001000101110011000011, 0b0110001000100110111000101010,
    0b0110000100010111011000010101, 0b0100011100000011100001001111,
    0b0010000010110101100100111100, 0b0001110010000100001011111100,
    0b0001100001001110000101110011, 0b0001010011000010010110001111,
    0b0000101000101101001110011010, 0b0000100100011100101110100101,
    0b0000011010100001011101100110, 0b0000010110010000111101011001,
    0b0000001001101011010011101001, 0b0000000101011010110011010110],
   [0b0111111111111000000000000000, 0b1011111100000111110000000000,
    0b1101000011110111101000000000, 0b1110110011000110000111000000,
    0b1101011110000000010110110000, 0b1101101100001100000101001100,
    0b1100110100101001010000101010, 0b1100111000011000110000010101,
    0b1011100001110000001110110000, 0b1011000010111010000011000011,
    0b1010001011011001001000101010, 0b1010000111101000101000010101,
    0b1000011101110000000001001111, 0b0111010000000011101101001100,
    0b0111000001000101110011000011, 0b0110001000100110111000101010,
    0b0110000100010111011000010101, 0b0100101100000011100010110011,
    0b0010000010110101100100111100, 0b0001110010000100001011111100,
    0b0001100011000010010101110011, 0b0001010001001110000110001111,
    0b0000101010100001011110011010, 0b0000100110010000111110100101,
    0b0000011000101101001101100110, 0b0000010100011100101101011001,
    0b0000001001101011010011101001, 0b0000000101011010110011010110],
   [0b0111111111111000000000000000, 0b1011111100000111110000000000,
    0b1101100011100111001100000000, 0b1110010010011111000011000000,
    0b1110001101100100101000110000, 0b1101001100011010010010001100,
    0b1100110101010000110000101010, 0b1100111000101000110000010101,
    0b1011000001111001000101000011, 0b1010101010110000001100101010,
    0b1010100111001000001100010101, 0b1001011011001000000011101010,
    0b1001010110110000000011010101, 0b0111100000000011101011110000,
    0b0111010000000101011110001100, 0b0111000010000110110101000011,
    0b0100101100000101010001110011, 0b0100011100000011100100001111,
    0b0010100001100110000110111100, 0b0010000011100011011000001111,
    0b0001010000011110001001111100, 0b0001000010011101100010110011,
    0b0000101001010100101011011010, 0b0000100100101100101011100101,
    0b0000011001010010011110100110, 0b0000010100101010011110011001,
    0b0000001011010001110101101001, 0b0000000110101001110101010110],
   [0b0111111111111000000000000000, 0b1011111100000111110000000000,
    0b1101100011100111001100000000, 0b1110010011010110100011000000,
    0b1110001100101101001000110000, 0b1101001110010000110010001100,
    0b1100110100011001010000101010, 0b1100111000101000110000010101,
    0b1011010001110000001110001100, 0b1011000010111010000101000011,
    0b1010100111001000001100010101, 0b1001011011001000000011101010,
    0b1000101101110000000001110011, 0b0111100000000011101011110000,
    0b0111000001000101110101000011, 0b0110101000000110011100101010,
    0b0101010100000110010011010101, 0b0100011100000011100100001111,
    0b0010100010100101000110111100, 0b0010000011100011011000001111,
    0b0001010010010100101001111100, 0b0001000001011110100010110011,
    0b0000101000011101001011011010, 0b0000100100101100101011100101,
    0b0000011010010001011110100110, 0b0000010110100000111110011001,
    0b0000001001011011010101101001, 0b0000000101101010110101010110],
   [0b0111111111111000000000000000, 0b1011111100000111110000000000,
    0b1101100011100111001100000000, 0b1110010011010110100011000000,
    0b1110001100101101001000110000, 0b1101001110010000110010001100,
    0b1100110100101000110000101010, 0b1100111000011001010000010101,
    0b1011010001110000001110001100, 0b1011000010111010000101000011,
    0b1010101011001000001100101010, 0b1001010111001000000011010101,
    0b1000101101110000000001110011, 0b0111100000000011101011110000,
    0b0111000001000101110101000011, 0b0110100100000110011100010101,
    0b0101011000000110010011101010, 0b0100011100000011100100001111,
    0b0010100010100101000110111100, 0b0010000011100011011000001111,
    0b0001010010010100101001111100, 0b0001000001011110100010110011,
    0b0000101000101100101011011010, 0b0000100100011101001011100101,
    0b0000011010100000111110100110, 0b0000010110010001011110011001,
    0b0000001001101010110101101001, 0b0000000101011011010101010110],
   [0b0111111111111000000000000000, 0b1011111100000111110000000000,
    0b1101100011100111001100000000, 0b1110010011010110100011000000,
    0b1110001110100001011000110000, 0b1101001100011100100010001100,
    0b1100110100011001010000101010, 0b1100111000101000110000010101,
    0b1011100001110000001011110000, 0b1011000010111010000101000011,
    0b1010100111001000001100010101, 0b1001011011001000000011101010,
    0b1000011101110000000100001111, 0b0111010000000011101110001100,
    0b0111000001000101110101000011, 0b0110101000000110011100101010,
    0b0101010100000110010011010101, 0b0100101100000011100001110011,
    0b0010100010100101000110111100, 0b0010000001101111001000001111,
    0b0001010010010100101001111100, 0b0001000011010010110010110011,
    0b0000101010010001011011011010, 0b0000100110100000111011100101,
    0b0000011000011101001110100110, 0b0000010100101100101110011001,
    0b0000001001011011010101101001, 0b0000000101101010110101010110],
   [0b0111111111111000000000000000, 0b1011111100000111110000000000,
    0b1101100011100111001100000000, 0b1110010011010110100011000000,
    0b1110001110100001011000110000, 0b1101001100011100100010001100,
    0b1100110100101000110000101010, 0b1100111000011001010000010101,
    0b1011100001110000001011110000, 0b1011000010111010000101000011,
    0b1010101011001000001100101010, 0b1001010111001000000011010101,
    0b1000011101110000000100001111, 0b0111010000000011101110001100,
    0b0111000001000101110101000011, 0b0110100100000110011100010101,
    0b0101011000000110010011101010, 0b0100101100000011100001110011,
    0b0010100010100101000110111100, 0b0010000001101111001000001111,
    0b0001010010010100101001111100, 0b0001000011010010110010110011,
    0b0000101010100000111011011010, 0b0000100110010001011011100101,
    0b0000011000101100101110100110, 0b0000010100011101001110011001,
    0b0000001001101010110101101001, 0b0000000101011011010101010110],
   [0b0111111111111000000000000000, 0b1011111100000111110000000000,
    0b1101100011100111001100000000, 0b1110010011100100110011000000,
    0b1110001110010011001000110000, 0b1101001101001000110010001100,
    0b1100110100011010100000101010, 0b1100111000011001010000010101,
    0b1011100001110000001011110000, 0b1011010010101000001110001100,
    0b1011000011011100000101000011, 0b1000101110101000000001110011,
    0b1000011101110000000100001111, 0b0111000000100011110101000011,
    0b0110101000000101101100101010, 0b0110100100000110011100010101,
    0b0101011000000110010011101010, 0b0101010100000101100011010101,
    0b0010100011000011000110111100, 0b0010000001101111001000001111,
    0b0001010011000000111001111100, 0b0001000010110100110010110011,
    0b0000101010010010101011011010, 0b0000100110010001011011100101,
    0b0000011001001010101110100110, 0b0000010101001001011110011001,
    0b0000001000111110100101101001, 0b0000000100111101010101010110],
   [0b0111111111111000000000000000, 0b1011111100000111110000000000,
    0b1101100011100111001100000000, 0b1110011010010110001011000000,
    0b1110000101101101100000110000, 0b1101001100011010010010001100,
    0b1101010110010000110001000011, 0b1100111001001000110000101010,
    0b1011001001110000001101000011, 0b1010100110101000001100101010,
    0b1010100011011001000100010101, 0b1001011010101000000011010101,
    0b1000110101110000000010111100, 0b0111100000000011101011110000,
    0b0111010000000101011110001100, 0b0110100000100110110100010101,
    0b0100101100000101010001110011, 0b0100011100000011100100001111,
    0b0011000011000110000111101010, 0b0010000011100011011000001111,
    0b0001010000011110001001111100, 0b0001001010010100101010110011,
    0b0000100101001100101011011010, 0b0000100000111101100011100101,
    0b0000010101001010011110100110, 0b0000010000111011010110011001,
    0b0000001111000000111101101001, 0b0000001010110001110101010110],
   [0b0111111111111000000000000000, 0b1011111100000111110000000000,
    0b1101100011100111001100000000, 0b1110011010010110001011000000,
    0b1110000101101101100000110000, 0b1101001110010000110010001100,
    0b1101010100011010010001000011, 0b1100111001001000110000101010,
    0b1011010001110000001110001100, 0b1010100110101000001100101010,
    0b1010100011011001000100010101, 0b1001011010101000000011010101,
    0b1000101101110000000001110011, 0b0111100000000011101011110000,
    0b0111001000000101011101000011, 0b0110100000100110110100010101,
    0b0100110100000101010010111100, 0b0100011100000011100100001111,
    0b0011000011000110000111101010, 0b0010000011100011011000001111,
    0b0001010010010100101001111100, 0b0001001000011110001010110011,
    0b0000100101001100101011011010, 0b0000100000111101100011100101,
    0b0000010111000000111110100110, 0b0000010010110001110110011001,
    0b0000001101001010011101101001, 0b0000001000111011010101010110],
   [0b0111111111111000000000000000, 0b1011111100000111110000000000,
    0b1101100011100111001100000000, 0b1110011011000100101011000000,
    0b1110000100111111000000110000, 0b1101001110010000110010001100,
    0b1101010101001000110001000011, 0b1100111000011010010000101010,
    0b1011010001110000001110001100, 0b1011001010101000001101000011,
    0b1010100011011001000100010101, 0b1000110110101000000010111100,
    0b1000101101110000000001110011, 0b0111100000000011101011110000,
    0b0110100100000101011100101010, 0b0110100000100110110100010101,
    0b0101011000000101010011010101, 0b0100011100000011100100001111,
    0b0011000011000110000111101010, 0b0010000011100011011000001111,
    0b0001010010010100101001111100, 0b0001001001001100101010110011,
    0b0000100100011110001011011010, 0b0000100000111101100011100101,
    0b0000010110010010011110100110, 0b0000010010110001110110011001,
    0b0000001101001010011101101001, 0b0000001001101001110101010110],
   [0b0111111111111000000000000000, 0b1011111100000111110000000000,
    0b1101100011100111001100000000, 0b1110011010010110001011000000,
    0b1110000111100001110000110000, 0b1101001100011100100010001100,
    0b1101010100011010010001000011, 0b1100111001001000110000101010,
    0b1011100001110000001011110000, 0b1010100110101000001100101010,
    0b1010100011011001000100010101, 0b1001011010101000000011010101,
    0b1000011101110000000100001111, 0b0111010000000011101110001100,
    0b0111001000000101011101000011, 0b0110100000100110110100010101,
    0b0100110100000101010010111100, 0b0100101100000011100001110011,
    0b0011000011000110000111101010, 0b0010000001101111001000001111,
    0b0001010010010100101001111100, 0b0001001010010010011010110011,
    0b0000100111000000111011011010, 0b0000100010110001110011100101,
    0b0000010101001100101110100110, 0b0000010000111101100110011001,
    0b0000001101001010011101101001, 0b0000001000111011010101010110],
   [0b0111111111111000000000000000, 0b1011111100000111110000000000,
    0b1101100011100111001100000000, 0b1110011011000100101011000000,
    0b1110000110110011010000110000, 0b1101001100011100100010001100,
    0b1101010101001000110001000011, 0b1100111000011010010000101010,
    0b1011100001110000001011110000, 0b1011001010101000001101000011,
    0b1010100011011001000100010101, 0b1000110110101000000010111100,
    0b1000011101110000000100001111, 0b0111010000000011101110001100,
    0b0110100100000101011100101010, 0b0110100000100110110100010101,
    0b0101011000000101010011010101, 0b0100101100000011100001110011,
    0b0011000011000110000111101010, 0b0010000001101111001000001111,
    0b0001010010010100101001111100, 0b0001001011000000111010110011,
    0b0000100110010010011011011010, 0b0000100010110001110011100101,
    0b0000010100011110001110100110, 0b0000010000111101100110011001,
    0b0000001101001010011101101001, 0b0000001001101001110101010110],
   [0b0111111111111000000000000000, 0b1011111100000111110000000000,
    0b1101100011100111001100000000, 0b1110011011000100101011000000,
    0b1110000110110011010000110000, 0b1101001101001000110010001100,
    0b1101010100011100100001000011, 0b1100111000011010010000101010,
    0b1011100001110000001011110000, 0b1011010010101000001110001100,
    0b1010100011011001000100010101, 0b1000101110101000000001110011,
    0b1000011101110000000100001111, 0b0111001000000011101101000011,
    0b0110100100000101011100101010, 0b0110100000100110110100010101,
    0b0101011000000101010011010101, 0b0100110100000011100010111100,
    0b0011000011000110000111101010, 0b0010000001101111001000001111,
    0b0001010011000000111001111100, 0b0001001010010100101010110011,
    0b0000100110010010011011011010, 0b0000100010110001110011100101,
    0b0000010101001010011110100110, 0b0000010001101001110110011001,
    0b0000001100011110001101101001, 0b0000001000111101100101010110],
   [0b0111111111111000000000000000, 0b1011111100000111110000000000,
    0b1101100011100111001100000000, 0b1110010011010110100011000000,
    0b1110011100100001001100110000, 0b1101101100010000100011110000,
    0b1100110100011001010000101100, 0b1100111000101000110000010011,
    0b1011000001111100001010001010, 0b1011000010111010000101000101,
    0b1010100111001000001100010011, 0b1001011011001000000011101100,
    0b1000001111110000010000001111, 0b0111000010000011111010001010,
    0b0111000001000101110101000101, 0b0110101000000110011100101100,
    0b0101010100000110010011010011, 0b0100001100001111100000001111,
    0b0010100010100101000110111010, 0b0010100001100011001001110101,
    0b0001010010010100101001111010, 0b0001010001010010100110110101,
    0b0000111000010001001111011100, 0b0000110100100000101111100011,
    0b0000001010011101011010100110, 0b0000001001011011010101101001,
    0b0000000110101100111010011001, 0b0000000101101010110101010110],
   [0b0111111111111000000000000000, 0b1011111100000111110000000000,
    0b1101100011100111001100000000, 0b1110010011010110100011000000,
    0b1110011100100001001100110000, 0b1101101100010000100011110000,
    0b1100110100101000110000101100, 0b1100111000011001010000010011,
    0b1011000001111100001010001010, 0b1011000010111010000101000101,
    0b1010101011001000001100101100, 0b1001010111001000000011010011,
    0b1000001111110000010000001111, 0b0111000010000011111010001010,
    0b0111000001000101110101000101, 0b0110100100000110011100010011,
    0b0101011000000110010011101100, 0b0100001100001111100000001111,
    0b0010100010100101000110111010, 0b0010100001100011001001110101,
    0b0001010010010100101001111010, 0b0001010001010010100110110101,
    0b0000111000100000101111011100, 0b0000110100010001001111100011,
    0b0000001010101100111010100110, 0b0000001001101010110101101001,
    0b0000000110011101011010011001, 0b0000000101011011010101010110],
   [0b0111111111111000000000000000, 0b1011111100000111110000000000,
    0b1101100011100111001100000000, 0b1110011010010110001011000000,
    0b1110010101100001100100110000, 0b1101101100010000100011110000,
    0b1101010100011100010010001100, 0b1100111001001000110000101010,
    0b1011000001111010001001000011, 0b1010100110101000001100101010,
    0b1010100011011001000100010101, 0b1001011010101000000011010101,
    0b1000001111110000010000001111, 0b0111001000000011011110001100,
    0b0111000010000101111001000011, 0b0110100000100110110100010101,
    0b0100110100000011010001110011, 0b0100001100001111100000001111,
    0b0011000011000110000111101010, 0b0010100001100101001010111100,
    0b0001011000010100001101111100, 0b0001010010010010101010110011,
    0b0000110101000000101111011010, 0b0000110000110001100111100101,
    0b0000001101001100011110100110, 0b0000001000111101010110011001,
    0b0000000111001010111001101001, 0b0000000010111011110001010110],
   [0b0111111111111000000000000000, 0b1011111100000111110000000000,
    0b1101100011100111001100000000, 0b1110011011000100101011000000,
    0b1110010100110011000100110000, 0b1101101100010000100011110000,
    0b1101010110001000110010001100, 0b1100111000011010010000101010,
    0b1011001001101000001110001100, 0b1011000010111100001001000011,
    0b1010100011011001000100010101, 0b1000110101101000000001110011,
    0b1000001111110000010000001111, 0b0111000001000011111001000011,
    0b0110100100000101011100101010, 0b0110100000100110110100010101,
    0b0101011000000101010011010101, 0b0100001100001111100000001111,
    0b0011000011000110000111101010, 0b0010100010100011001010111100,
    0b0001011010000000101101111100, 0b0001010001010100101010110011,
    0b0000110100010010001111011010, 0b0000110000110001100111100101,
    0b0000001110001010011110100110, 0b0000001010101001110110011001,
    0b0000000101011110011001101001, 0b0000000001111101110001010110],
   [0b0111111111111000000000000000, 0b1011111100000111110000000000,
    0b1101100011100111001100000000, 0b1110011110000100001111000000,
    0b1110010001110011100000110000, 0b1101101100010000100011110000,
    0b1101010100011100010010001100, 0b1101011010001000110001000011,
    0b1011000101101000001101000011, 0b1010100010111010001000101010,
    0b1010100011011001000100010101, 0b1000111001101000000010111100,
    0b1000001111110000010000001111, 0b0111001000000011011110001100,
    0b0110100001000101111000101010, 0b0110100000100110110100010101,
    0b0100110100000011010001110011, 0b0100001100001111100000001111,
    0b0011000011000110000111101010, 0b0011000010100101001011010101,
    0b0001011000010100001101111100, 0b0001010110000000101110110011,
    0b0000110001010010101011011010, 0b0000110000110001100111100101,
    0b0000001001011110011010100110, 0b0000001000111101010110011001,
    0b0000000111001010111001101001, 0b0000000110101001110101010110],
   [0b0111111111111000000000000000, 0b1011111100000111110000000000,
    0b1101100011100111001100000000, 0b1110011110000100001111000000,
    0b1110010001110011100000110000, 0b1101101100010000100011110000,
    0b1101010110001000110010001100, 0b1101011000011100010001000011,
    0b1011001001101000001110001100, 0b1010100010111010001000101010,
    0b1010100011011001000100010101, 0b1000110101101000000001110011,
    0b1000001111110000010000001111, 0b0111000100000011011101000011,
    0b0110100001000101111000101010, 0b0110100000100110110100010101,
    0b0100111000000011010010111100, 0b0100001100001111100000001111,
    0b0011000011000110000111101010, 0b0011000010100101001011010101,
    0b0001011010000000101101111100, 0b0001010100010100001110110011,
    0b0000110001010010101011011010, 0b0000110000110001100111100101,
    0b0000001011001010111010100110, 0b0000001010101001110110011001,
    0b0000000101011110011001101001, 0b0000000100111101010101010110],
   [0b0111111111111000000000000000, 0b1011111100000111110000000000,
    0b1101110011000110001110000000, 0b1110000011110111100001000000,
    0b1110011100001100001100110000, 0b1110101110000000011010001100,
    0b1100110100101001010000101010, 0b1100111000011000110000010101,
    0b1011010001110000001011001100, 0b1011000010111010000110000011,
    0b1001001011011001000001101010, 0b1001000111101000100001010101,
    0b1000101101110000000100110011, 0b0111100000000011101101110000,
    0b0111000001000101110110000011, 0b0101001000100110110001101010,
    0b0101000100010111010001010101, 0b0100011100000011100010001111,
    0b0010110010000100000111111100, 0b0010100001001110001010110011,
    0b0010010011000010011100001111, 0b0001000010110101101000111100,
    0b0000101000101101001101011010, 0b0000100100011100101101100101,
    0b0000011010100001011011100110, 0b0000010110010000111011011001,
    0b0000001001101011010110101001, 0b0000000101011010110110010110],
   [0b0111111111111000000000000000, 0b1011111100000111110000000000,
    0b1101110011000110001110000000, 0b1110000011110111100001000000,
    0b1110011110000000011100110000, 0b1110101100001100001010001100,
    0b1100110100101001010000101010, 0b1100111000011000110000010101,
    0b1011100001110000001101110000, 0b1011000010111010000110000011,
    0b1001001011011001000001101010, 0b1001000111101000100001010101,
    0b1000011101110000000010001111, 0b0111010000000011101011001100,
    0b0111000001000101110110000011, 0b0101001000100110110001101010,
    0b0101000100010111010001010101, 0b0100101100000011100100110011,
    0b0010110010000100000111111100, 0b0010100011000010011010110011,
    0b0010010001001110001100001111, 0b0001000010110101101000111100,
    0b0000101010100001011101011010, 0b0000100110010000111101100101,
    0b0000011000101101001011100110, 0b0000010100011100101011011001,
    0b0000001001101011010110101001, 0b0000000101011010110110010110]]

/-- `solutions` of /repo/srg/database/problem_28_12_6_4.py, entries 23 to 45. -/
def p_28_12_6_4_1 : List (List Nat) :=
  [[0b0111111111111000000000000000, 0b1011111100000111110000000000,
    0b1101110011000110001110000000, 0b1110001010110111001001000000,
    0b1110010101001100100100110000, 0b1110100101001010010010001100,
    0b1101000110110001110000000011, 0b1100111000101000110000101010,
    0b1011001001110000001110000011, 0b1010110010011000000110010101,
    0b1001001110011000001001101010, 0b1001001011101001000001010101,
    0b1000110101110000000001111100, 0b0111100000000011101101110000,
    0b0111010000000101011011001100, 0b0101001000010110110001010101,
    0b0100101100000101010100110011, 0b0100011100000011100010001111,
    0b0011000010100110000111101010, 0b0010100011000100101010110011,
    0b0010010011000010011100001111, 0b0001000000111111001000111100,
    0b0000100100101100101101011010, 0b0000100001011101100101100101,
    0b0000010100101010011011100110, 0b0000010001011011010011011001,
    0b0000001110100000111110101001, 0b0000001011010001110110010110],
   [0b0111111111111000000000000000, 0b1011111100000111110000000000,
    0b1101110011000110001110000000, 0b1110001010110111001001000000,
    0b1110010101001100100100110000, 0b1110100111000000110010001100,
    0b1101000100111011010000000011, 0b1100111000101000110000101010,
    0b1011010001110000001011001100, 0b1010110010011000000110010101,
    0b1001001110011000001001101010, 0b1001001011101001000001010101,
    0b1000101101110000000100110011, 0b0111100000000011101101110000,
    0b0111001000000101011110000011, 0b0101001000010110110001010101,
    0b0100110100000101010001111100, 0b0100011100000011100010001111,
    0b0011000010100110000111101010, 0b0010100001001110001010110011,
    0b0010010011000010011100001111, 0b0001000010110101101000111100,
    0b0000100100101100101101011010, 0b0000100001011101100101100101,
    0b0000010110100000111011100110, 0b0000010011010001110011011001,
    0b0000001100101010011110101001, 0b0000001001011011010110010110],
   [0b0111111111111000000000000000, 0b1011111100000111110000000000,
    0b1101110011000110001110000000, 0b1110001011100101101001000000,
    0b1110010100011110000100110000, 0b1110100110010010010010001100,
    0b1101000101101001110000000011, 0b1100111000011001010000101010,
    0b1011010001110000001011001100, 0b1011001010101000001110000011,
    0b1001001011011000100001010101, 0b1000110110101000000001111100,
    0b1000101101110000000100110011, 0b0111100000000011101101110000,
    0b0110110000000100110110010101, 0b0101001100000100111001101010,
    0b0101001000100111010001010101, 0b0100011100000011100010001111,
    0b0011000011000101000111101010, 0b0010100001001110001010110011,
    0b0010010011000010011100001111, 0b0001000010110101101000111100,
    0b0000100100011101001101011010, 0b0000100000111110100101100101,
    0b0000010110010001011011100110, 0b0000010010110010110011011001,
    0b0000001101001001011110101001, 0b0000001001101010110110010110],
   [0b0111111111111000000000000000, 0b1011111100000111110000000000,
    0b1101110011000110001110000000, 0b1110001010110111001001000000,
    0b1110010111000000110100110000, 0b1110100101001100100010001100,
    0b1101000100111011010000000011, 0b1100111000101000110000101010,
    0b1011100001110000001101110000, 0b1010110010011000000110010101,
    0b1001001110011000001001101010, 0b1001001011101001000001010101,
    0b1000011101110000000010001111, 0b0111010000000011101011001100,
    0b0111001000000101011110000011, 0b0101001000010110110001010101,
    0b0100110100000101010001111100, 0b0100101100000011100100110011,
    0b0011000010100110000111101010, 0b0010100011000010011010110011,
    0b0010010001001110001100001111, 0b0001000010110101101000111100,
    0b0000100110100000111101011010, 0b0000100011010001110101100101,
    0b0000010100101100101011100110, 0b0000010001011101100011011001,
    0b0000001100101010011110101001, 0b0000001001011011010110010110],
   [0b0111111111111000000000000000, 0b1011111100000111110000000000,
    0b1101110011000110001110000000, 0b1110001011100101101001000000,
    0b1110010110010010010100110000, 0b1110100100011110000010001100,
    0b1101000101101001110000000011, 0b1100111000011001010000101010,
    0b1011100001110000001101110000, 0b1011001010101000001110000011,
    0b1001001011011000100001010101, 0b1000110110101000000001111100,
    0b1000011101110000000010001111, 0b0111010000000011101011001100,
    0b0110110000000100110110010101, 0b0101001100000100111001101010,
    0b0101001000100111010001010101, 0b0100101100000011100100110011,
    0b0011000011000101000111101010, 0b0010100011000010011010110011,
    0b0010010001001110001100001111, 0b0001000010110101101000111100,
    0b0000100110010001011101011010, 0b0000100010110010110101100101,
    0b0000010100011101001011100110, 0b0000010000111110100011011001,
    0b0000001101001001011110101001, 0b0000001001101010110110010110],
   [0b0111111111111000000000000000, 0b1011111100000111110000000000,
    0b1101110011000110001110000000, 0b1110001011100101101001000000,
    0b1110010110010010010100110000, 0b1110100101001010010010001100,
    0b1101000100111101100000000011, 0b1100111000011001010000101010,
    0b1011100001110000001101110000, 0b1011010010101000001011001100,
    0b1001001011011000100001010101, 0b1000101110101000000100110011,
    0b1000011101110000000010001111, 0b0111001000000011101110000011,
    0b0110110000000100110110010101, 0b0101001100000100111001101010,
    0b0101001000100111010001010101, 0b0100110100000011100001111100,
    0b0011000011000101000111101010, 0b0010100010010110001010110011,
    0b0010010001001110001100001111, 0b0001000011100001111000111100,
    0b0000100110010001011101011010, 0b0000100010110010110101100101,
    0b0000010101001001011011100110, 0b0000010001101010110011011001,
    0b0000001100011101001110101001, 0b0000001000111110100110010110],
   [0b0111111111111000000000000000, 0b1011111100000111110000000000,
    0b1101110011000110001110000000, 0b1110001010110111001001000000,
    0b1110010101001100100100110000, 0b1110101101000000010110001100,
    0b1101010100110001010001001100, 0b1100111000101000110000101010,
    0b1011000001111010001010000011, 0b1010110010011000000110010101,
    0b1001001110011000001001101010, 0b1001001011101001000001010101,
    0b1000100111110000100000110011, 0b0111100000000011101101110000,
    0b0111000010000101111010000011, 0b0101001000010110110001010101,
    0b0100100100001111010000110011, 0b0100011100000011100010001111,
    0b0011000010100110000111101010, 0b0010110001000100001011111100,
    0b0010010011000010011100001111, 0b0001001000110101001100111100,
    0b0000100100101100101101011010, 0b0000100001011101100101100101,
    0b0000011100100000011111100110, 0b0000011001010001010111011001,
    0b0000000110101010111010101001, 0b0000000011011011110010010110],
   [0b0111111111111000000000000000, 0b1011111100000111110000000000,
    0b1101110011000110001110000000, 0b1110001011100101101001000000,
    0b1110010110010010010100110000, 0b1110101100001010000110001100,
    0b1101010100101001100001001100, 0b1100111000011001010000101010,
    0b1011100001110000001101110000, 0b1011000010111100001010000011,
    0b1001001011011000100001010101, 0b1000100111101000010000110011,
    0b1000011101110000000010001111, 0b0111000001000011111010000011,
    0b0110110000000100110110010101, 0b0101001100000100111001101010,
    0b0101001000100111010001010101, 0b0100100100010111100000110011,
    0b0011000011000101000111101010, 0b0010110010000010001011111100,
    0b0010010001001110001100001111, 0b0001001010100001101100111100,
    0b0000100110010001011101011010, 0b0000100010110010110101100101,
    0b0000011100001001001111100110, 0b0000011000101010100111011001,
    0b0000000101011101011010101001, 0b0000000001111110110010010110],
   [0b0111111111111000000000000000, 0b1011111100000111110000000000,
    0b1101110011000110001110000000, 0b1110001100110110001101000000,
    0b1110010011001101100000110000, 0b1110101011000001010010001100,
    0b1101010100110001010001001100, 0b1101001000111010110000000011,
    0b1010110001101000001010101010, 0b1010110010011000000110010101,
    0b1001001110011000001001101010, 0b1001001101101000000101010101,
    0b1000100111110000100000110011, 0b0111100000000011101101110000,
    0b0111000100000100111110000011, 0b0100111000000100110001111100,
    0b0100100100001111010000110011, 0b0100011100000011100010001111,
    0b0011000010100110000111101010, 0b0011000001010110001011010101,
    0b0010010011000010011100001111, 0b0001001000110101001100111100,
    0b0000100010101101101001011010, 0b0000100001011101100101100101,
    0b0000011010100001011011100110, 0b0000011001010001010111011001,
    0b0000000110101010111010101001, 0b0000000101011010110110010110],
   [0b0111111111111000000000000000, 0b1011111100000111110000000000,
    0b1101110011000110001110000000, 0b1110001110100101001101000000,
    0b1110010001011110100000110000, 0b1110101001010010010010001100,
    0b1101010100110001010001001100, 0b1101001010101001110000000011,
    0b1011000101101000001110000011, 0b1010110010011000001010101010,
    0b1001001110011000000101010101, 0b1000111001101000000001111100,
    0b1000100111110000100000110011, 0b0111100000000011101101110000,
    0b0110110000000100110110010101, 0b0101001100000100111001101010,
    0b0100100100001111010000110011, 0b0100011100000011100010001111,
    0b0011000011000101000111101010, 0b0011000010100110001011010101,
    0b0010010011000010011100001111, 0b0001001000110101001100111100,
    0b0000100001011101101001011010, 0b0000100000111110100101100101,
    0b0000011001010001011011100110, 0b0000011000110010010111011001,
    0b0000000111001001111010101001, 0b0000000110101010110110010110],
   [0b0111111111111000000000000000, 0b1011111100000111110000000000,
    0b1101110011000110001110000000, 0b1110001110100101001101000000,
    0b1110010011010010110000110000, 0b1110101001001010100010001100,
    0b1101010100101001100001001100, 0b1101001000111101010000000011,
    0b1011100001110000001101110000, 0b1010110010011000001010101010,
    0b1001001110011000000101010101, 0b1000100111101000010000110011,
    0b1000011101110000000010001111, 0b0111000100000011011110000011,
    0b0110110000000100110110010101, 0b0101001100000100111001101010,
    0b0100111000000011010001111100, 0b0100100100010111100000110011,
    0b0011000011000101000111101010, 0b0011000010100110001011010101,
    0b0010010001001110001100001111, 0b0001001010100001101100111100,
    0b0000100011010001111001011010, 0b0000100010110010110101100101,
    0b0000011001001001101011100110, 0b0000011000101010100111011001,
    0b0000000101011101011010101001, 0b0000000100111110010110010110],
   [0b0111111111111000000000000000, 0b1011111100000111110000000000,
    0b1101110011000110001110000000, 0b1110001111000001101101000000,
    0b1110010010110110010000110000, 0b1110101000101110000010001100,
    0b1101010100101001100001001100, 0b1101001001011001110000000011,
    0b1011100001110000001101110000, 0b1011000110011000001110000011,
    0b1000111010011000000001111100, 0b1000100111101000010000110011,
    0b1000011101110000000010001111, 0b0110110000000011011010101010,
    0b0110110000000100110110010101, 0b0101001100000100111001101010,
    0b0101001100000011010101010101, 0b0100100100010111100000110011,
    0b0011000011000101000111101010, 0b0011000011000010101011010101,
    0b0010010001001110001100001111, 0b0001001010100001101100111100,
    0b0000100010110101011001011010, 0b0000100010110010110101100101,
    0b0000011000101101001011100110, 0b0000011000101010100111011001,
    0b0000000101011101011010101001, 0b0000000101011010110110010110],
   [0b0111111111111000000000000000, 0b1011111100000111110000000000,
    0b1101110011000110001110000000, 0b1110001010110111001001000000,
    0b1110011101000000100110110000, 0b1110100101001100010100001100,
    0b1101100100110001100001110000, 0b1100111000101000110000101010,
    0b1011000001111010001010000011, 0b1010110010011000000110010101,
    0b1001001110011000001001101010, 0b1001001011101001000001010101,
    0b1000010111110000010000001111, 0b0111010000000011011101001100,
    0b0111000010000101111010000011, 0b0101001000010110110001010101,
    0b0100101100000011010010110011, 0b0100010100001111100000001111,
    0b0011000010100110000111101010, 0b0010110001000100001011111100,
    0b0010100011000010101100110011, 0b0001001000110101001100111100,
    0b0000101100100000101111011010, 0b0000101001010001100111100101,
    0b0000010100101100011101100110, 0b0000010001011101010101011001,
    0b0000000110101010111010101001, 0b0000000011011011110010010110],
   [0b0111111111111000000000000000, 0b1011111100000111110000000000,
    0b1101110011000110001110000000, 0b1110001011100101101001000000,
    0b1110011100010010000110110000, 0b1110100110001010010100001100,
    0b1101100100110001100001110000, 0b1100111000011001010000101010,
    0b1011010001101000001101001100, 0b1011000010111100001010000011,
    0b1001001011011000100001010101, 0b1000101101101000000010110011,
    0b1000010111110000010000001111, 0b0111000001000011111010000011,
    0b0110110000000100110110010101, 0b0101001100000100111001101010,
    0b0101001000100111010001010101, 0b0100010100001111100000001111,
    0b0011000011000101000111101010, 0b0010110010000010001011111100,
    0b0010100001010110001100110011, 0b0001001010100001101100111100,
    0b0000101100010001001111011010, 0b0000101000110010100111100101,
    0b0000010110001001011101100110, 0b0000010010101010110101011001,
    0b0000000101011101011010101001, 0b0000000001111110110010010110],
   [0b0111111111111000000000000000, 0b1011111100000111110000000000,
    0b1101110011000110001110000000, 0b1110001100110110001101000000,
    0b1110011011000001100010110000, 0b1110100011001101010000001100,
    0b1101100100110001100001110000, 0b1101001000111010110000000011,
    0b1010110001101000001010101010, 0b1010110010011000000110010101,
    0b1001001110011000001001101010, 0b1001001101101000000101010101,
    0b1000010111110000010000001111, 0b0111010000000011011101001100,
    0b0111000100000100111110000011, 0b0100111000000100110001111100,
    0b0100101100000011010010110011, 0b0100010100001111100000001111,
    0b0011000010100110000111101010, 0b0011000001010110001011010101,
    0b0010100011000010101100110011, 0b0001001000110101001100111100,
    0b0000101010100001101011011010, 0b0000101001010001100111100101,
    0b0000010010101101011001100110, 0b0000010001011101010101011001,
    0b0000000110101010111010101001, 0b0000000101011010110110010110],
   [0b0111111111111000000000000000, 0b1011111100000111110000000000,
    0b1101110011000110001110000000, 0b1110001110100101001101000000,
    0b1110011001010010100010110000, 0b1110100001011110010000001100,
    0b1101100100110001100001110000, 0b1101001010101001110000000011,
    0b1011000101101000001110000011, 0b1010110010011000001010101010,
    0b1001001110011000000101010101, 0b1000111001101000000001111100,
    0b1000010111110000010000001111, 0b0111010000000011011101001100,
    0b0110110000000100110110010101, 0b0101001100000100111001101010,
    0b0100101100000011010010110011, 0b0100010100001111100000001111,
    0b0011000011000101000111101010, 0b0011000010100110001011010101,
    0b0010100011000010101100110011, 0b0001001000110101001100111100,
    0b0000101001010001101011011010, 0b0000101000110010100111100101,
    0b0000010001011101011001100110, 0b0000010000111110010101011001,
    0b0000000111001001111010101001, 0b0000000110101010110110010110],
   [0b0111111111111000000000000000, 0b1011111100000111110000000000,
    0b1101110011000110001110000000, 0b1110001110100101001101000000,
    0b1110011001010010100010110000, 0b1110100011001010110000001100,
    0b1101100100110001100001110000, 0b1101001000111101010000000011,
    0b1011010001101000001101001100, 0b1010110010011000001010101010,
    0b1001001110011000000101010101, 0b1000101101101000000010110011,
    0b1000010111110000010000001111, 0b0111000100000011011110000011,
    0b0110110000000100110110010101, 0b0101001100000100111001101010,
    0b0100111000000011010001111100, 0b0100010100001111100000001111,
    0b0011000011000101000111101010, 0b0011000010100110001011010101,
    0b0010100001010110001100110011, 0b0001001010100001101100111100,
    0b0000101001010001101011011010, 0b0000101000110010100111100101,
    0b0000010011001001111001100110, 0b0000010010101010110101011001,
    0b0000000101011101011010101001, 0b0000000100111110010110010110],
   [0b0111111111111000000000000000, 0b1011111100000111110000000000,
    0b1101110011000110001110000000, 0b1110001111000001101101000000,
    0b1110011000110110000010110000, 0b1110100010101110010000001100,
    0b1101100100110001100001110000, 0b1101001001011001110000000011,
    0b1011010001101000001101001100, 0b1011000110011000001110000011,
    0b1000111010011000000001111100, 0b1000101101101000000010110011,
    0b1000010111110000010000001111, 0b0110110000000011011010101010,
    0b0110110000000100110110010101, 0b0101001100000100111001101010,
    0b0101001100000011010101010101, 0b0100010100001111100000001111,
    0b0011000011000101000111101010, 0b0011000011000010101011010101,
    0b0010100001010110001100110011, 0b0001001010100001101100111100,
    0b0000101000110101001011011010, 0b0000101000110010100111100101,
    0b0000010010101101011001100110, 0b0000010010101010110101011001,
    0b0000000101011101011010101001, 0b0000000101011010110110010110],
   [0b0111111111111000000000000000, 0b1011111100000111110000000000,
    0b1101110011000110001110000000, 0b1110001110100101001101000000,
    0b1110011001010010100010110000, 0b1110100101001010010010001100,
    0b1101100100110001100001110000, 0b1101011000101001010001001100,
    0b1011000001111100001100000011, 0b1010110010011000001010101010,
    0b1001001110011000000101010101, 0b1000101011101000100000110011,
    0b1000010111110000010000001111, 0b0111000010000011111100000011,
    0b0110110000000100110110010101, 0b0101001100000100111001101010,
    0b0100101000010111010000110011, 0b0100010100001111100000001111,
    0b0011000011000101000111101010, 0b0011000010100110001011010101,
    0b0010110001000010001101111100, 0b0001001100100001001110111100,
    0b0000101001010001101011011010, 0b0000101000110010100111100101,
    0b0000010101001001011011100110, 0b0000010100101010010111011001,
    0b0000000011011101111000101001, 0b0000000010111110110100010110],
   [0b0111111111111000000000000000, 0b1011111100000111110000000000,
    0b1101111010000100001111000000, 0b1110000111100111001100000000,
    0b1110011000011100100010110000, 0b1110101010010000110001001100,
    0b1110110100001000010011000011, 0b1101001001101011010000000011,
    0b1011010001110000001101001100, 0b1001000110111010001000101010,
    0b1001000111011001000100010101, 0b1000110011101000100000111100,
    0b1000101101110000000010110011, 0b0111100000000011101110110000,
    0b0101000101000101111000101010, 0b0101000100100110110100010101,
    0b0100110000010111010000111100, 0b0100011100000011100001001111,
    0b0011000011000110000111101010, 0b0011000010100101001011010101,
    0b0010101000001100001101110011, 0b0010011010000000011110001111,
    0b0000100001011110101010011010, 0b0000100000111101100110100101,
    0b0000010011010010111001100110, 0b0000010010110001110101011001,
    0b0000001101001010011011101001, 0b0000001100101001010111010110],
   [0b0111111111111000000000000000, 0b1011111100000111110000000000,
    0b1101111010000100001111000000, 0b1110000111100111001100000000,
    0b1110011010010000110010110000, 0b1110101000011100100001001100,
    0b1110110100001000010011000011, 0b1101001001101011010000000011,
    0b1011100001110000001110110000, 0b1001000110111010001000101010,
    0b1001000111011001000100010101, 0b1000110011101000100000111100,
    0b1000011101110000000001001111, 0b0111010000000011101101001100,
    0b0101000101000101111000101010, 0b0101000100100110110100010101,
    0b0100110000010111010000111100, 0b0100101100000011100010110011,
    0b0011000011000110000111101010, 0b0011000010100101001011010101,
    0b0010101010000000011101110011, 0b0010011000001100001110001111,
    0b0000100011010010111010011010, 0b0000100010110001110110100101,
    0b0000010001011110101001100110, 0b0000010000111101100101011001,
    0b0000001101001010011011101001, 0b0000001100101001010111010110],
   [0b0111111111111000000000000000, 0b1011111100000111110000000000,
    0b1101111010000100001111000000, 0b1110000111100111001100000000,
    0b1110011000011100100010110000, 0b1110101100010000010011001100,
    0b1110110010001000110001000011, 0b1101010001110011010000001100,
    0b1011001001101000001101000011, 0b1001000110111010001000101010,
    0b1001000111011001000100010101, 0b1000110101101000000010111100,
    0b1000101011110000100000110011, 0b0111100000000011101110110000,
    0b0101000101000101111000101010, 0b0101000100100110110100010101,
    0b0100101000001111010000110011, 0b0100011100000011100001001111,
    0b0011000011000110000111101010, 0b0011000010100101001011010101,
    0b0010110000010100001101111100, 0b0010011010000000011110001111,
    0b0000100001011110101010011010, 0b0000100000111101100110100101,
    0b0000010101010010011011100110, 0b0000010100110001010111011001,
    0b0000001011001010111001101001, 0b0000001010101001110101010110],
   [0b0111111111111000000000000000, 0b1011111100000111110000000000,
    0b1101111010000100001111000000, 0b1110000111100111001100000000,
    0b1110011010010000110010110000, 0b1110101100001000100011001100,
    0b1110110000011100010001000011, 0b1101010001101011100000001100,
    0b1011100001110000001110110000, 0b1001000110111010001000101010,
    0b1001000111011001000100010101, 0b1000101011101000010000110011,
    0b1000011101110000000001001111, 0b0111001000000011011101000011,
    0b0101000101000101111000101010, 0b0101000100100110110100010101,
    0b0100110100000011010010111100, 0b0100101000010111100000110011,
    0b0011000011000110000111101010, 0b0011000010100101001011010101,
    0b0010110010000000101101111100, 0b0010011000001100001110001111,
    0b0000100011010010111010011010, 0b0000100010110001110110100101,
    0b0000010101001010101011100110, 0b0000010100101001100111011001,
    0b0000001001011110011001101001, 0b0000001000111101010101010110]]

/-- `solutions` of /repo/srg/database/problem_28_12_6_4.py, entries 46 to 68. -/
def p_28_12_6_4_2 : List (List Nat) :=
  [[0b0111111111111000000000000000, 0b1011111100000111110000000000,
    0b1101111010000100001111000000, 0b1110000111100111001100000000,
    0b1110011100010000100011110000, 0b1110101000011100010010001100,
    0b1110110010001000110001000011, 0b1101100001110011100000110000,
    0b1011001001101000001101000011, 0b1001000110111010001000101010,
    0b1001000111011001000100010101, 0b1000110101101000000010111100,
    0b1000011011110000010000001111, 0b0111010000000011011110001100,
    0b0101000101000101111000101010, 0b0101000100100110110100010101,
    0b0100101100000011010001110011, 0b0100011000001111100000001111,
    0b0011000011000110000111101010, 0b0011000010100101001011010101,
    0b0010110000010100001101111100, 0b0010101010000000101110110011,
    0b0000100101010010101011011010, 0b0000100100110001100111100101,
    0b0000010001011110011010100110, 0b0000010000111101010110011001,
    0b0000001011001010111001101001, 0b0000001010101001110101010110],
   [0b0111111111111000000000000000, 0b1011111100000111110000000000,
    0b1101111010000100001111000000, 0b1110000111100111001100000000,
    0b1110011100010000100011110000, 0b1110101010001000110010001100,
    0b1110110000011100010001000011, 0b1101100001110011100000110000,
    0b1011010001101000001110001100, 0b1001000110111010001000101010,
    0b1001000111011001000100010101, 0b1000101101101000000001110011,
    0b1000011011110000010000001111, 0b0111001000000011011101000011,
    0b0101000101000101111000101010, 0b0101000100100110110100010101,
    0b0100110100000011010010111100, 0b0100011000001111100000001111,
    0b0011000011000110000111101010, 0b0011000010100101001011010101,
    0b0010110010000000101101111100, 0b0010101000010100001110110011,
    0b0000100101010010101011011010, 0b0000100100110001100111100101,
    0b0000010011001010111010100110, 0b0000010010101001110110011001,
    0b0000001001011110011001101001, 0b0000001000111101010101010110],
   [0b0111111111111000000000000000, 0b1011111100000111110000000000,
    0b1101100011100111001100000000, 0b1110110010010110000011100000,
    0b1111001001001110000010011000, 0b1101001110010000110001100100,
    0b1100110101001000110000011100, 0b1100011000111001110000000011,
    0b1011010001110000001101100100, 0b1010101010101000001100011100,
    0b1010000111011001001100000011, 0b1001010110101000000011100011,
    0b1000101101110000000010011011, 0b0111100000000011101011010010,
    0b0111100000000101010110101001, 0b0110000100100110111100000011,
    0b0100011100000101011001010110, 0b0100011100000011100100101101,
    0b0010000011100101100101010110, 0b0010000011100011011000101101,
    0b0001100000011110000001111011, 0b0001010010010100101010110110,
    0b0001010010010010010111001101, 0b0000101001001100101011001110,
    0b0000101001001010010110110101, 0b0000011011000000111101111000,
    0b0000000100111101101011010001, 0b0000000100111011010110101010],
   [0b0111111111111000000000000000, 0b1011111100000111110000000000,
    0b1101100011100111001100000000, 0b1110110010010110000011100000,
    0b1111001011000100100010011000, 0b1101001100011010010001100100,
    0b1100110101001000110000011100, 0b1100011000111001110000000011,
    0b1011100001110000001011010010, 0b1010101010101000001100011100,
    0b1010000111011001001100000011, 0b1001010110101000000011100011,
    0b1000011101110000000100101101, 0b0111100000000011100110101001,
    0b0111010000000101011101100100, 0b0110000100100110111100000011,
    0b0100101100000101010010011011, 0b0100011100000011101001010110,
    0b0010000011100011010101010110, 0b0010000001101111001000101101,
    0b0001100010010100100001111011, 0b0001010010010010011010110110,
    0b0001010000011110000111001101, 0b0000101011000000111011001110,
    0b0000101001001100100110110101, 0b0000011001001010011101111000,
    0b0000000110110001111011010001, 0b0000000100111101100110101010],
   [0b0111111111111000000000000000, 0b1011111100000111110000000000,
    0b1101100011100111001100000000, 0b1110110011000100100011100000,
    0b1111001010010110000010011000, 0b1101001101001000110001100100,
    0b1100110100011010010000011100, 0b1100011000111001110000000011,
    0b1011100001110000001011010010, 0b1011010010101000001101100100,
    0b1010000111011001001100000011, 0b1000101110101000000010011011,
    0b1000011101110000000100101101, 0b0111100000000011100110101001,
    0b0110101000000101011100011100, 0b0110000100100110111100000011,
    0b0101010100000101010011100011, 0b0100011100000011101001010110,
    0b0010000011100011010101010110, 0b0010000001101111001000101101,
    0b0001100010010100100001111011, 0b0001010011000000111010110110,
    0b0001010001001100100111001101, 0b0000101010010010011011001110,
    0b0000101000011110000110110101, 0b0000011001001010011101111000,
    0b0000000110110001111011010001, 0b0000000100111101100110101010],
   [0b0111111111111000000000000000, 0b1011111100000111110000000000,
    0b1101100011100111001100000000, 0b1110110011000100100011100000,
    0b1111001011000010010010011000, 0b1101001100011100100001100100,
    0b1100110100011010010000011100, 0b1100011000111001110000000011,
    0b1011100001110000001011010010, 0b1011100010101000000110101001,
    0b1010000111011001001100000011, 0b1000011110101000001001010110,
    0b1000011101110000000100101101, 0b0111010000000011101101100100,
    0b0110101000000101011100011100, 0b0110000100100110111100000011,
    0b0101010100000101010011100011, 0b0100101100000011100010011011,
    0b0010000010110111000101010110, 0b0010000001101111001000101101,
    0b0001100011000000110001111011, 0b0001010010010100101010110110,
    0b0001010001001100100111001101, 0b0000101010010010011011001110,
    0b0000101001001010010110110101, 0b0000011000011110001101111000,
    0b0000000110110001111011010001, 0b0000000101101001110110101010],
   [0b0111111111111000000000000000, 0b1011111100000111110000000000,
    0b1101100011100111001100000000, 0b1110110010010110000011100000,
    0b1111011001000100001010011000, 0b1101101100010000100011010100,
    0b1100110101001000110000011010, 0b1100011000111001110000000101,
    0b1011000001111010000101100010, 0b1010101010101000001100011010,
    0b1010000111011001001100000101, 0b1001010110101000000011100101,
    0b1000001111110000010000101011, 0b0111100000000011011010101001,
    0b0111000010000101110101100010, 0b0110000100100110111100000101,
    0b0100011100000011010101010110, 0b0100001100001111100000101011,
    0b0010100001100101000110011101, 0b0010000011100011101001010110,
    0b0001110000010100001001111101, 0b0001010010010010100110110110,
    0b0001000010011110010011001011, 0b0000111001000000101111001110,
    0b0000101001001100011010110011, 0b0000010100110001101111010001,
    0b0000001011001010110101111000, 0b0000000100111101011010101100],
   [0b0111111111111000000000000000, 0b1011111100000111110000000000,
    0b1101100011100111001100000000, 0b1110110011000100100011100000,
    0b1111011010000010001010011000, 0b1101101100010000100011010100,
    0b1100110100011010010000011010, 0b1100011000111001110000000101,
    0b1011100001101000001010101001, 0b1011000010111100000101100010,
    0b1010000111011001001100000101, 0b1000011101101000000101010110,
    0b1000001111110000010000101011, 0b0111000001000011110101100010,
    0b0110101000000101011100011010, 0b0110000100100110111100000101,
    0b0101010100000101010011100101, 0b0100001100001111100000101011,
    0b0010100010100011000110011101, 0b0010000001110111001001010110,
    0b0001110010000000101001111101, 0b0001010001010100100110110110,
    0b0001000011001100110011001011, 0b0000111000010010001111001110,
    0b0000101010001010011010110011, 0b0000010100110001101111010001,
    0b0000001001011110010101111000, 0b0000000110101001111010101100],
   [0b0111111111111000000000000000, 0b1011111100000111110000000000,
    0b1101100011100111001100000000, 0b1110111010000100001011100000,
    0b1111010001010110000010011000, 0b1101101100010000100011010100,
    0b1101010110001000110001100010, 0b1100011000111001110000000101,
    0b1011001001101000001101100010, 0b1010100010111010000100011010,
    0b1010000111011001001100000101, 0b1000110101101000000010011101,
    0b1000001111110000010000101011, 0b0111100000000011011010101001,
    0b0110100001000101110100011010, 0b0110000100100110111100000101,
    0b0100011100000011010101010110, 0b0100001100001111100000101011,
    0b0011000010100101000111100101, 0b0010000011100011101001010110,
    0b0001110000010100001001111101, 0b0001011010000000101110110110,
    0b0001001010001100011011001011, 0b0000110001010010100111001110,
    0b0000100001011110010010110011, 0b0000010100110001101111010001,
    0b0000001011001010110101111000, 0b0000000100111101011010101100],
   [0b0111111111111000000000000000, 0b1011111100000111110000000000,
    0b1101100011100111001100000000, 0b1110111010000100001011100000,
    0b1111010011000010100010011000, 0b1101101100010000100011010100,
    0b1101010100011100010001100010, 0b1100011000111001110000000101,
    0b1011100001101000001010101001, 0b1010100010111010000100011010,
    0b1010000111011001001100000101, 0b1000011101101000000101010110,
    0b1000001111110000010000101011, 0b0111001000000011011101100010,
    0b0110100001000101110100011010, 0b0110000100100110111100000101,
    0b0100110100000011010010011101, 0b0100001100001111100000101011,
    0b0011000010100101000111100101, 0b0010000001110111001001010110,
    0b0001110010000000101001111101, 0b0001011000010100001110110110,
    0b0001001010001100011011001011, 0b0000110001010010100111001110,
    0b0000100011001010110010110011, 0b0000010100110001101111010001,
    0b0000001001011110010101111000, 0b0000000110101001111010101100],
   [0b0111111111111000000000000000, 0b1011111100000111110000000000,
    0b1101100011100111001100000000, 0b1110111010000100001011100000,
    0b1111011001000010000110011000, 0b1101101100010000100011010100,
    0b1101110100001000010010101010, 0b1100011000111001110000000110,
    0b1011000001111100001001100001, 0b1010100010111010000100011001,
    0b1010000111011001001100000110, 0b1000010111101000100001010101,
    0b1000001111110000010000101011, 0b0111000010000011111001100001,
    0b0110100001000101110100011001, 0b0110000100100110111100000110,
    0b0100010100010111010001010101, 0b0100001100001111100000101011,
    0b0011000010100101000111100110, 0b0010100001100011001010011110,
    0b0001111000000000001101111110, 0b0001010010010100101010110101,
    0b0001001010001100011011001011, 0b0000110001010010100111001101,
    0b0000101001001010010110110011, 0b0000010100110001101111010010,
    0b0000001100101001011110101100, 0b0000000011011110110001111000],
   [0b0111111111111000000000000000, 0b1011111100000111110000000000,
    0b1101110011000110001110000000, 0b1110100010110111000001100000,
    0b1111001000101110001000011000, 0b1110001111000000110110000100,
    0b1100110100101000110000011100, 0b1100011001011001110000000011,
    0b1011010001110000000111100100, 0b1010010110011000001110000011,
    0b1001101010011000000001111100, 0b1001000111101001000001100011,
    0b1000101101110000001000011011, 0b0111100000000011101101010010,
    0b0111100000000101011010101001, 0b0101000100010110110001100011,
    0b0100011100000101010101010110, 0b0100011100000011100010101101,
    0b0010100001001110000110011011, 0b0010010011000100101011010110,
    0b0010010011000010011100101101, 0b0001000010110101100100110110,
    0b0001000010110011010011001101, 0b0000101000101100101101001110,
    0b0000101000101010011010110101, 0b0000011010100000110111111000,
    0b0000000101011101101101010001, 0b0000000101011011011010101010],
   [0b0111111111111000000000000000, 0b1011111100000111110000000000,
    0b1101110011000110001110000000, 0b1110100010110111000001100000,
    0b1111001010100100101000011000, 0b1110001101001010010110000100,
    0b1100110100101000110000011100, 0b1100011001011001110000000011,
    0b1011100001110000001101010010, 0b1010010110011000001110000011,
    0b1001101010011000000001111100, 0b1001000111101001000001100011,
    0b1000011101110000000010101101, 0b0111100000000011101010101001,
    0b0111010000000101010111100100, 0b0101000100010110110001100011,
    0b0100101100000101011000011011, 0b0100011100000011100101010110,
    0b0010100011000100100110011011, 0b0010010011000010011011010110,
    0b0010010001001110001100101101, 0b0001000010110011010100110110,
    0b0001000000111111000011001101, 0b0000101010100000111101001110,
    0b0000101000101100101010110101, 0b0000011000101010010111111000,
    0b0000000111010001111101010001, 0b0000000101011101101010101010],
   [0b0111111111111000000000000000, 0b1011111100000111110000000000,
    0b1101110011000110001110000000, 0b1110100011100101100001100000,
    0b1111001010010101001000011000, 0b1110001101001010010110000100,
    0b1100110100011001010000011100, 0b1100011000111010110000000011,
    0b1011100001110000001101010010, 0b1011010010101000000111100100,
    0b1001000111011000100001100011, 0b1000101110101000001000011011,
    0b1000011101110000000010101101, 0b0111100000000011101010101001,
    0b0110010100000100111110000011, 0b0101101000000100110001111100,
    0b0101000100100111010001100011, 0b0100011100000011100101010110,
    0b0010100010010110000110011011, 0b0010010011000010011011010110,
    0b0010010001001110001100101101, 0b0001000011100001110100110110,
    0b0001000001101101100011001101, 0b0000101010010001011101001110,
    0b0000101000011101001010110101, 0b0000011001001001010111111000,
    0b0000000110110010111101010001, 0b0000000100111110101010101010],
   [0b0111111111111000000000000000, 0b1011111100000111110000000000,
    0b1101110011000110001110000000, 0b1110100011100101100001100000,
    0b1111001011000001011000011000, 0b1110001100011110000110000100,
    0b1100110100011001010000011100, 0b1100011000111010110000000011,
    0b1011100001110000001101010010, 0b1011100010101000001010101001,
    0b1001000111011000100001100011, 0b1000011110101000000101010110,
    0b1000011101110000000010101101, 0b0111010000000011100111100100,
    0b0110010100000100111110000011, 0b0101101000000100110001111100,
    0b0101000100100111010001100011, 0b0100101100000011101000011011,
    0b0010100011000010010110011011, 0b0010010010010110001011010110,
    0b0010010001001110001100101101, 0b0001000010110101100100110110,
    0b0001000001101101100011001101, 0b0000101010010001011101001110,
    0b0000101001001001011010110101, 0b0000011000011101000111111000,
    0b0000000110110010111101010001, 0b0000000101101010111010101010],
   [0b0111111111111000000000000000, 0b1011111100000111110000000000,
    0b1101110011000110001110000000, 0b1110101000110110001001100000,
    0b1111000010101111000000011000, 0b1110001111000000110110000100,
    0b1101010100110000110001100100, 0b1100011001011001110000000011,
    0b1010110001101000000110011100, 0b1010010110011000001110000011,
    0b1001101010011000000001111100, 0b1001001101101000001001100011,
    0b1000100111110001000000011011, 0b0111100000000011101101010010,
    0b0111100000000101011010101001, 0b0100100100001110110000011011,
    0b0100011100000101010101010110, 0b0100011100000011100010101101,
    0b0011000001010110000111100011, 0b0010010011000100101011010110,
    0b0010010011000010011100101101, 0b0001001000110100101100110110,
    0b0001001000110010011011001101, 0b0000100010101101100101001110,
    0b0000100010101011010010110101, 0b0000011010100000110111111000,
    0b0000000101011101101101010001, 0b0000000101011011011010101010],
   [0b0111111111111000000000000000, 0b1011111100000111110000000000,
    0b1101110011000110001110000000, 0b1110101010100101001001100000,
    0b1111000010110110100000011000, 0b1110001101001010010110000100,
    0b1101010100101001010001100100, 0b1100011001011001110000000011,
    0b1011100001110000001101010010, 0b1010010110011000001110000011,
    0b1001101010011000000001111100, 0b1000100111101000100000011011,
    0b1000011101110000000010101101, 0b0111100000000011101010101001,
    0b0110110000000100110110011100, 0b0101001100000100111001100011,
    0b0100100100010111010000011011, 0b0100011100000011100101010110,
    0b0011000011000101000111100011, 0b0010010011000010011011010110,
    0b0010010001001110001100101101, 0b0001001010100001011100110110,
    0b0001001000101101001011001101, 0b0000100010110010110101001110,
    0b0000100000111110100010110101, 0b0000011000101010010111111000,
    0b0000000111010001111101010001, 0b0000000101011101101010101010],
   [0b0111111111111000000000000000, 0b1011111100000111110000000000,
    0b1101110011000110001110000000, 0b1110101010100101001001100000,
    0b1111000011010101100000011000, 0b1110001101001010010110000100,
    0b1101010100101001010001100100, 0b1100011000111010110000000011,
    0b1011100001110000001101010010, 0b1010110010011000000110011100,
    0b1001001110011000001001100011, 0b1000100111101000100000011011,
    0b1000011101110000000010101101, 0b0111100000000011101010101001,
    0b0110010100000100111110000011, 0b0101101000000100110001111100,
    0b0100100100010111010000011011, 0b0100011100000011100101010110,
    0b0011000010100110000111100011, 0b0010010011000010011011010110,
    0b0010010001001110001100101101, 0b0001001010100001011100110110,
    0b0001001000101101001011001101, 0b0000100011010001110101001110,
    0b0000100001011101100010110101, 0b0000011001001001010111111000,
    0b0000000110110010111101010001, 0b0000000100111110101010101010],
   [0b0111111111111000000000000000, 0b1011111100000111110000000000,
    0b1101110011000110001110000000, 0b1110101011000001101001100000,
    0b1111000011100101010000011000, 0b1110001100011110000110000100,
    0b1101010100011001100001100100, 0b1100011000111010110000000011,
    0b1011100001110000001101010010, 0b1011100010101000001010101001,
    0b1000100111011000010000011011, 0b1000011110101000000101010110,
    0b1000011101110000000010101101, 0b0110110000000011010110011100,
    0b0110010100000100111110000011, 0b0101101000000100110001111100,
    0b0101001100000011011001100011, 0b0100100100100111100000011011,
    0b0011000011000010100111100011, 0b0010010010010110001011010110,
    0b0010010001001110001100101101, 0b0001001010010001101100110110,
    0b0001001001001001101011001101, 0b0000100010110101010101001110,
    0b0000100001101101010010110101, 0b0000011000011101000111111000,
    0b0000000110110010111101010001, 0b0000000101101010111010101010],
   [0b0111111111111000000000000000, 0b1011111100000111110000000000,
    0b1101110011000110001110000000, 0b1110101010100101001001100000,
    0b1111000110010100101000011000, 0b1110001101001010010110000100,
    0b1101010100101001010001100100, 0b1100111000011000110000011100,
    0b1011100001110000001101010010, 0b1010010010111010000110000011,
    0b1001001011011001000001100011, 0b1000100111101000100000011011,
    0b1000011101110000000010101101, 0b0111100000000011101010101001,
    0b0110010001000101110110000011, 0b0101001000100110110001100011,
    0b0100100100010111010000011011, 0b0100011100000011100101010110,
    0b0011100010000100000111111100, 0b0010010011000010011011010110,
    0b0010010001001110001100101101, 0b0001001010100001011100110110,
    0b0001001000101101001011001101, 0b0000100110010000111101001110,
    0b0000100100011100101010110101, 0b0000011100001000011111111000,
    0b0000000011110011110101010001, 0b0000000001111111100010101010],
   [0b0111111111111000000000000000, 0b1011111100000111110000000000,
    0b1101110011000110001110000000, 0b1110101000110110001001100000,
    0b1111001010100101000100011000, 0b1110000111001010110010000100,
    0b1101100100110001100001010010, 0b1100011001011001110000000011,
    0b1010110001101000000110011100, 0b1010010110011000001110000011,
    0b1001101010011000000001111100, 0b1001001101101000001001100011,
    0b1000010111110000010000101101, 0b0111100000000011011100101001,
    0b0111010000000100111011100100, 0b0100101100000100110100011011,
    0b0100011100000011010011010110, 0b0100010100001111100000101101,
    0b0011000001010110000111100011, 0b0010100011000101001010011011,
    0b0010010011000010101101010110, 0b0001001000110010101010110110,
    0b0001000000111110011001001101, 0b0000101010100001100111001110,
    0b0000100010101101010100110101, 0b0000010010101010110011111000,
    0b0000001101010001101111010001, 0b0000000101011101011100101010],
   [0b0111111111111000000000000000, 0b1011111100000111110000000000,
    0b1101110011000110001110000000, 0b1110101010100101001001100000,
    0b1111001000110110000100011000, 0b1110000111001010110010000100,
    0b1101100100110001100001010010, 0b1100011001011001110000000011,
    0b1011010001101000001011100100, 0b1010010110011000001110000011,
    0b1001101010011000000001111100, 0b1000101101101000000100011011,
    0b1000010111110000010000101101, 0b0111100000000011011100101001,
    0b0110110000000100110110011100, 0b0101001100000100111001100011,
    0b0100011100000011010011010110, 0b0100010100001111100000101101,
    0b0011000011000101000111100011, 0b0010100001010110001010011011,
    0b0010010011000010101101010110, 0b0001001010100001101010110110,
    0b0001000010101101011001001101, 0b0000101000110010100111001110,
    0b0000100000111110010100110101, 0b0000010010101010110011111000,
    0b0000001101010001101111010001, 0b0000000101011101011100101010],
   [0b0111111111111000000000000000, 0b1011111100000111110000000000,
    0b1101110011000110001110000000, 0b1110101010100101001001100000,
    0b1111001001010101000100011000, 0b1110000111001010110010000100,
    0b1101100100110001100001010010, 0b1100011000111010110000000011,
    0b1011010001101000001011100100, 0b1010110010011000000110011100,
    0b1001001110011000001001100011, 0b1000101101101000000100011011,
    0b1000010111110000010000101101, 0b0111100000000011011100101001,
    0b0110010100000100111110000011, 0b0101101000000100110001111100,
    0b0100011100000011010011010110, 0b0100010100001111100000101101,
    0b0011000010100110000111100011, 0b0010100001010110001010011011,
    0b0010010011000010101101010110, 0b0001001010100001101010110110,
    0b0001000010101101011001001101, 0b0000101001010001100111001110,
    0b0000100001011101010100110101, 0b0000010011001001110011111000,
    0b0000001100110010101111010001, 0b0000000100111110011100101010]]

/-- `solutions` of /repo/srg/database/problem_28_12_6_4.py, entries 69 to 91. -/
def p_28_12_6_4_3 : List (List Nat) :=
  [[0b0111111111111000000000000000, 0b1011111100000111110000000000,
    0b1101110011000110001110000000, 0b1110101010100101001001100000,
    0b1111001010100010100100011000, 0b1110000101011110010010000100,
    0b1101100100110001100001010010, 0b1100011001011001110000000011,
    0b1011100001101000001100101001, 0b1010010110011000001110000011,
    0b1001101010011000000001111100, 0b1000011101101000000011010110,
    0b1000010111110000010000101101, 0b0111010000000011011011100100,
    0b0110110000000100110110011100, 0b0101001100000100111001100011,
    0b0100101100000011010100011011, 0b0100010100001111100000101101,
    0b0011000011000101000111100011, 0b0010100011000010101010011011,
    0b0010010001010110001101010110, 0b0001001000110101001010110110,
    0b0001000010101101011001001101, 0b0000101000110010100111001110,
    0b0000100010101010110100110101, 0b0000010000111110010011111000,
    0b0000001101010001101111010001, 0b0000000111001001111100101010],
   [0b0111111111111000000000000000, 0b1011111100000111110000000000,
    0b1101110011000110001110000000, 0b1110101010100101001001100000,
    0b1111001011000001100100011000, 0b1110000101011110010010000100,
    0b1101100100110001100001010010, 0b1100011000111010110000000011,
    0b1011100001101000001100101001, 0b1010110010011000000110011100,
    0b1001001110011000001001100011, 0b1000011101101000000011010110,
    0b1000010111110000010000101101, 0b0111010000000011011011100100,
    0b0110010100000100111110000011, 0b0101101000000100110001111100,
    0b0100101100000011010100011011, 0b0100010100001111100000101101,
    0b0011000010100110000111100011, 0b0010100011000010101010011011,
    0b0010010001010110001101010110, 0b0001001000110101001010110110,
    0b0001000010101101011001001101, 0b0000101001010001100111001110,
    0b0000100011001001110100110101, 0b0000010001011101010011111000,
    0b0000001100110010101111010001, 0b0000000110101010111100101010],
   [0b0111111111111000000000000000, 0b1011111100000111110000000000,
    0b1101110011000110001110000000, 0b1110101011000001101001100000,
    0b1111001010100101000100011000, 0b1110000101011110010010000100,
    0b1101100100110001100001010010, 0b1100011000111010110000000011,
    0b1011100001101000001100101001, 0b1011010010011000001011100100,
    0b1000101110011000000100011011, 0b1000011101101000000011010110,
    0b1000010111110000010000101101, 0b0110110000000011010110011100,
    0b0110010100000100111110000011, 0b0101101000000100110001111100,
    0b0101001100000011011001100011, 0b0100010100001111100000101101,
    0b0011000011000010100111100011, 0b0010100010100110001010011011,
    0b0010010001010110001101010110, 0b0001001001010001101010110110,
    0b0001000011001001111001001101, 0b0000101000110101000111001110,
    0b0000100010101101010100110101, 0b0000010001011101010011111000,
    0b0000001100110010101111010001, 0b0000000110101010111100101010],
   [0b0111111111111000000000000000, 0b1011111100000111110000000000,
    0b1101110011000110001110000000, 0b1110101010100101001001100000,
    0b1111001100010100001100011000, 0b1110000111001010110010000100,
    0b1101100100110001100001010010, 0b1100111000011000110000011100,
    0b1011010001101000001011100100, 0b1010010010111010000110000011,
    0b1001001011011001000001100011, 0b1000101101101000000100011011,
    0b1000010111110000010000101101, 0b0111100000000011011100101001,
    0b0110010001000101110110000011, 0b0101001000100110110001100011,
    0b0100011100000011010011010110, 0b0100010100001111100000101101,
    0b0011100010000100000111111100, 0b0010100001010110001010011011,
    0b0010010011000010101101010110, 0b0001001010100001101010110110,
    0b0001000010101101011001001101, 0b0000101100010000101111001110,
    0b0000100100011100011100110101, 0b0000010110001000111011111000,
    0b0000001001110011100111010001, 0b0000000001111111010100101010],
   [0b0111111111111000000000000000, 0b1011111100000111110000000000,
    0b1101110011000110001110000000, 0b1110101010100101001001100000,
    0b1111001110000000101100011000, 0b1110000101011110010010000100,
    0b1101100100110001100001010010, 0b1100111000011000110000011100,
    0b1011100001101000001100101001, 0b1010010010111010000110000011,
    0b1001001011011001000001100011, 0b1000011101101000000011010110,
    0b1000010111110000010000101101, 0b0111010000000011011011100100,
    0b0110010001000101110110000011, 0b0101001000100110110001100011,
    0b0100101100000011010100011011, 0b0100010100001111100000101101,
    0b0011100010000100000111111100, 0b0010100011000010101010011011,
    0b0010010001010110001101010110, 0b0001001000110101001010110110,
    0b0001000010101101011001001101, 0b0000101100010000101111001110,
    0b0000100110001000111100110101, 0b0000010100011100011011111000,
    0b0000001001110011100111010001, 0b0000000011101011110100101010],
   [0b0111111111111000000000000000, 0b1011111100000111110000000000,
    0b1101110011000110001110000000, 0b1110101100100100001101100000,
    0b1111001010010101001000011000, 0b1110000111001010110010000100,
    0b1101100100110001100001010010, 0b1101011000101000110001100100,
    0b1010110001011000001010011100, 0b1010010010111010000110000011,
    0b1001001101011000000101100011, 0b1000101011101001000000011011,
    0b1000010111110000010000101101, 0b0111100000000011011100101001,
    0b0110010001000101110110000011, 0b0100101000010110110000011011,
    0b0100011100000011010011010110, 0b0100010100001111100000101101,
    0b0011100010000100000111111100, 0b0011000001100110001011100011,
    0b0010010011000010101101010110, 0b0001001100100000101110110110,
    0b0001000100101100011101001101, 0b0000101010010001101011001110,
    0b0000100010011101011000110101, 0b0000010110001000111011111000,
    0b0000001001110011100111010001, 0b0000000001111111010100101010],
   [0b0111111111111000000000000000, 0b1011111100000111110000000000,
    0b1101110011000110001110000000, 0b1110101110000001001101100000,
    0b1111001010100100101000011000, 0b1110000101011110010010000100,
    0b1101100100110001100001010010, 0b1101011000011001010001100100,
    0b1011100001101000001100101001, 0b1010010010111010000110000011,
    0b1000101011011000100000011011, 0b1000011101101000000011010110,
    0b1000010111110000010000101101, 0b0110110000000010111010011100,
    0b0110010001000101110110000011, 0b0101001100000010110101100011,
    0b0100101000100111010000011011, 0b0100010100001111100000101101,
    0b0011100010000100000111111100, 0b0011000011000011001011100011,
    0b0010010001010110001101010110, 0b0001001100010001001110110110,
    0b0001000110001001011101001101, 0b0000101000110100101011001110,
    0b0000100010101100111000110101, 0b0000010100011100011011111000,
    0b0000001001110011100111010001, 0b0000000011101011110100101010],
   [0b0111111111111000000000000000, 0b1011111100000111110000000000,
    0b1101110011000110001110000000, 0b1110101100100100001101100000,
    0b1111001110000001001010011000, 0b1110000011011110110000000100,
    0b1101100100110001100001010010, 0b1101101000101001010000101001,
    0b1010110001011000001010011100, 0b1010010010111010000110000011,
    0b1001001101011000000101100011, 0b1000011011101000100001010110,
    0b1000010111110000010000101101, 0b0111010000000010111101100100,
    0b0110010001000101110110000011, 0b0100101100000010110010011011,
    0b0100011000010111010001010110, 0b0100010100001111100000101101,
    0b0011100010000100000111111100, 0b0011000001100110001011100011,
    0b0010100011000011001100011011, 0b0001001000110100101100110110,
    0b0001000100101100011101001101, 0b0000101010010001101011001110,
    0b0000100110001001011010110101, 0b0000010010011100111001111000,
    0b0000001001110011100111010001, 0b0000000101101011010110101010],
   [0b0111111111111000000000000000, 0b1011111100000111110000000000,
    0b1101110011000110001110000000, 0b1110101110000001001101100000,
    0b1111001100100100001010011000, 0b1110000011011110110000000100,
    0b1101100100110001100001010010, 0b1101101000101001010000101001,
    0b1011010001011000001101100100, 0b1010010010111010000110000011,
    0b1000101101011000000010011011, 0b1000011011101000100001010110,
    0b1000010111110000010000101101, 0b0110110000000010111010011100,
    0b0110010001000101110110000011, 0b0101001100000010110101100011,
    0b0100011000010111010001010110, 0b0100010100001111100000101101,
    0b0011100010000100000111111100, 0b0011000011000011001011100011,
    0b0010100001100110001100011011, 0b0001001010010001101100110110,
    0b0001000110001001011101001101, 0b0000101000110100101011001110,
    0b0000100100101100011010110101, 0b0000010010011100111001111000,
    0b0000001001110011100111010001, 0b0000000101101011010110101010],
   [0b0111111111111000000000000000, 0b1011111100000111110000000000,
    0b1101110011000110001110000000, 0b1110100010110111000001100000,
    0b1111011000100100001001011000, 0b1110101101000000101100010100,
    0b1100110100101000110000011010, 0b1100011001011001110000000101,
    0b1011000001111010000110100010, 0b1010010110011000001110000101,
    0b1001101010011000000001111010, 0b1001000111101001000001100101,
    0b1000001111110000010010001011, 0b0111100000000011011011001001,
    0b0111000010000101110110100010, 0b0101000100010110110001100101,
    0b0100011100000011010100110110, 0b0100001100001111100010001011,
    0b0010110001000100000111011101, 0b0010010011000010101010110110,
    0b0010000011001110011100001011, 0b0001100000110101001000111101,
    0b0001000010110011100101010110, 0b0000111000100000101101101110,
    0b0000101000101100011011010011, 0b0000010101010001101101110001,
    0b0000001010101010110110111000, 0b0000000101011101011011001100],
   [0b0111111111111000000000000000, 0b1011111100000111110000000000,
    0b1101110011000110001110000000, 0b1110100011100101100001100000,
    0b1111011010000001001001011000, 0b1110101100010010001100010100,
    0b1100110100011001010000011010, 0b1100011000111010110000000101,
    0b1011100001101000001011001001, 0b1011000010111100000110100010,
    0b1001000111011000100001100101, 0b1000011101101000000100110110,
    0b1000001111110000010010001011, 0b0111000001000011110110100010,
    0b0110010100000100111110000101, 0b0101101000000100110001111010,
    0b0101000100100111010001100101, 0b0100001100001111100010001011,
    0b0010110010000010000111011101, 0b0010010001010110001010110110,
    0b0010000011001110011100001011, 0b0001100010100001101000111101,
    0b0001000001110101100101010110, 0b0000111000010001001101101110,
    0b0000101010001001011011010011, 0b0000010100110010101101110001,
    0b0000001001011101010110111000, 0b0000000110101010111011001100],
   [0b0111111111111000000000000000, 0b1011111100000111110000000000,
    0b1101110011000110001110000000, 0b1110101000110110001001100000,
    0b1111010010100101000001011000, 0b1110100111000001100100010100,
    0b1101000100111010110000100010, 0b1100011001011001110000000101,
    0b1010110001101000000110011010, 0b1010010110011000001110000101,
    0b1001101010011000000001111010, 0b1001001101101000001001100101,
    0b1000001111110000010010001011, 0b0111100000000011011011001001,
    0b0111001000000100111110100010, 0b0100110100000100110001011101,
    0b0100011100000011010100110110, 0b0100001100001111100010001011,
    0b0011000001010110000111100101, 0b0010010011000010101010110110,
    0b0010000011001110011100001011, 0b0001100000110101001000111101,
    0b0001001000110010101101010110, 0b0000110010100001100101101110,
    0b0000100010101101010011010011, 0b0000010101010001101101110001,
    0b0000001010101010110110111000, 0b0000000101011101011011001100],
   [0b0111111111111000000000000000, 0b1011111100000111110000000000,
    0b1101110011000110001110000000, 0b1110101010100101001001100000,
    0b1111010000110110000001011000, 0b1110100101010010100100010100,
    0b1101000110101001110000100010, 0b1100011001011001110000000101,
    0b1011001001101000001110100010, 0b1010010110011000001110000101,
    0b1001101010011000000001111010, 0b1000110101101000000001011101,
    0b1000001111110000010010001011, 0b0111100000000011011011001001,
    0b0110110000000100110110011010, 0b0101001100000100111001100101,
    0b0100011100000011010100110110, 0b0100001100001111100010001011,
    0b0011000011000101000111100101, 0b0010010011000010101010110110,
    0b0010000011001110011100001011, 0b0001100000110101001000111101,
    0b0001001010100001101101010110, 0b0000110000110010100101101110,
    0b0000100000111110010011010011, 0b0000010101010001101101110001,
    0b0000001010101010110110111000, 0b0000000101011101011011001100],
   [0b0111111111111000000000000000, 0b1011111100000111110000000000,
    0b1101110011000110001110000000, 0b1110101010100101001001100000,
    0b1111010001010101000001011000, 0b1110100101010010100100010100,
    0b1101000110101001110000100010, 0b1100011000111010110000000101,
    0b1011001001101000001110100010, 0b1010110010011000000110011010,
    0b1001001110011000001001100101, 0b1000110101101000000001011101,
    0b1000001111110000010010001011, 0b0111100000000011011011001001,
    0b0110010100000100111110000101, 0b0101101000000100110001111010,
    0b0100011100000011010100110110, 0b0100001100001111100010001011,
    0b0011000010100110000111100101, 0b0010010011000010101010110110,
    0b0010000011001110011100001011, 0b0001100000110101001000111101,
    0b0001001010100001101101010110, 0b0000110001010001100101101110,
    0b0000100001011101010011010011, 0b0000010100110010101101110001,
    0b0000001011001001110110111000, 0b0000000100111110011011001100],
   [0b0111111111111000000000000000, 0b1011111100000111110000000000,
    0b1101110011000110001110000000, 0b1110101010100101001001100000,
    0b1111010010100010100001011000, 0b1110100101010010100100010100,
    0b1101000100111101010000100010, 0b1100011001011001110000000101,
    0b1011100001101000001011001001, 0b1010010110011000001110000101,
    0b1001101010011000000001111010, 0b1000011101101000000100110110,
    0b1000001111110000010010001011, 0b0111001000000011011110100010,
    0b0110110000000100110110011010, 0b0101001100000100111001100101,
    0b0100110100000011010001011101, 0b0100001100001111100010001011,
    0b0011000011000101000111100101, 0b0010010001010110001010110110,
    0b0010000011001110011100001011, 0b0001100010100001101000111101,
    0b0001001000110101001101010110, 0b0000110000110010100101101110,
    0b0000100010101010110011010011, 0b0000010101010001101101110001,
    0b0000001000111110010110111000, 0b0000000111001001111011001100],
   [0b0111111111111000000000000000, 0b1011111100000111110000000000,
    0b1101110011000110001110000000, 0b1110101010100101001001100000,
    0b1111010011000001100001011000, 0b1110100101010010100100010100,
    0b1101000100111101010000100010, 0b1100011000111010110000000101,
    0b1011100001101000001011001001, 0b1010110010011000000110011010,
    0b1001001110011000001001100101, 0b1000011101101000000100110110,
    0b1000001111110000010010001011, 0b0111001000000011011110100010,
    0b0110010100000100111110000101, 0b0101101000000100110001111010,
    0b0100110100000011010001011101, 0b0100001100001111100010001011,
    0b0011000010100110000111100101, 0b0010010001010110001010110110,
    0b0010000011001110011100001011, 0b0001100010100001101000111101,
    0b0001001000110101001101010110, 0b0000110001010001100101101110,
    0b0000100011001001110011010011, 0b0000010100110010101101110001,
    0b0000001001011101010110111000, 0b0000000110101010111011001100],
   [0b0111111111111000000000000000, 0b1011111100000111110000000000,
    0b1101110011000110001110000000, 0b1110101011000001101001100000,
    0b1111010010100101000001011000, 0b1110100100110110000100010100,
    0b1101000101011001110000100010, 0b1100011000111010110000000101,
    0b1011100001101000001011001001, 0b1011001010011000001110100010,
    0b1000110110011000000001011101, 0b1000011101101000000100110110,
    0b1000001111110000010010001011, 0b0110110000000011010110011010,
    0b0110010100000100111110000101, 0b0101101000000100110001111010,
    0b0101001100000011011001100101, 0b0100001100001111100010001011,
    0b0011000011000010100111100101, 0b0010010001010110001010110110,
    0b0010000011001110011100001011, 0b0001100010100001101000111101,
    0b0001001001010001101101010110, 0b0000110000110101000101101110,
    0b0000100010101101010011010011, 0b0000010100110010101101110001,
    0b0000001001011101010110111000, 0b0000000110101010111011001100],
   [0b0111111111111000000000000000, 0b1011111100000111110000000000,
    0b1101110011000110001110000000, 0b1110101010100101001001100000,
    0b1111010100010100001001011000, 0b1110100101010010100100010100,
    0b1101000110101001110000100010, 0b1100111000011000110000011010,
    0b1011001001101000001110100010, 0b1010010010111010000110000101,
    0b1001001011011001000001100101, 0b1000110101101000000001011101,
    0b1000001111110000010010001011, 0b0111100000000011011011001001,
    0b0110010001000101110110000101, 0b0101001000100110110001100101,
    0b0100011100000011010100110110, 0b0100001100001111100010001011,
    0b0011100010000100000111111010, 0b0010010011000010101010110110,
    0b0010000011001110011100001011, 0b0001100000110101001000111101,
    0b0001001010100001101101010110, 0b0000110100010000101101101110,
    0b0000100100011100011011010011, 0b0000010001110011100101110001,
    0b0000001110001000111110111000, 0b0000000001111111010011001100],
   [0b0111111111111000000000000000, 0b1011111100000111110000000000,
    0b1101110011000110001110000000, 0b1110101010100101001001100000,
    0b1111010110000000101001011000, 0b1110100101010010100100010100,
    0b1101000100111101010000100010, 0b1100111000011000110000011010,
    0b1011100001101000001011001001, 0b1010010010111010000110000101,
    0b1001001011011001000001100101, 0b1000011101101000000100110110,
    0b1000001111110000010010001011, 0b0111001000000011011110100010,
    0b0110010001000101110110000101, 0b0101001000100110110001100101,
    0b0100110100000011010001011101, 0b0100001100001111100010001011,
    0b0011100010000100000111111010, 0b0010010001010110001010110110,
    0b0010000011001110011100001011, 0b0001100010100001101000111101,
    0b0001001000110101001101010110, 0b0000110100010000101101101110,
    0b0000100110001000111011010011, 0b0000010001110011100101110001,
    0b0000001100011100011110111000, 0b0000000011101011110011001100],
   [0b0111111111111000000000000000, 0b1011111100000111110000000000,
    0b1101110011000110001110000000, 0b1110101010100101001001100000,
    0b1111011000100010000101011000, 0b1110100101010010100100010100,
    0b1101100100101001010001001010, 0b1100011001011001110000000110,
    0b1011000001111100001010100001, 0b1010010110011000001110000110,
    0b1001101010011000000001111001, 0b1000010111101000100000110101,
    0b1000001111110000010010001011, 0b0111000010000011111010100001,
    0b0110110000000100110110011001, 0b0101001100000100111001100110,
    0b0100010100010111010000110101, 0b0100001100001111100010001011,
    0b0011000011000101000111100110, 0b0010110001000010001011011110,
    0b0010000011001110011100001011, 0b0001101000100001001100111110,
    0b0001000010110101101001010101, 0b0000110000110010100101101101,
    0b0000101000101010010111010011, 0b0000010101010001101101110010,
    0b0000001101001001011111001100, 0b0000000010111110110010111000],
   [0b0111111111111000000000000000, 0b1011111100000111110000000000,
    0b1101110011000110001110000000, 0b1110101010100101001001100000,
    0b1111011001000001000101011000, 0b1110100101010010100100010100,
    0b1101100100101001010001001010, 0b1100011000111010110000000110,
    0b1011000001111100001010100001, 0b1010110010011000000110011001,
    0b1001001110011000001001100110, 0b1000010111101000100000110101,
    0b1000001111110000010010001011, 0b0111000010000011111010100001,
    0b0110010100000100111110000110, 0b0101101000000100110001111001,
    0b0100010100010111010000110101, 0b0100001100001111100010001011,
    0b0011000010100110000111100110, 0b0010110001000010001011011110,
    0b0010000011001110011100001011, 0b0001101000100001001100111110,
    0b0001000010110101101001010101, 0b0000110001010001100101101101,
    0b0000101001001001010111010011, 0b0000010100110010101101110010,
    0b0000001100101010011111001100, 0b0000000011011101110010111000],
   [0b0111111111111000000000000000, 0b1011111100000111110000000000,
    0b1101110011000110001110000000, 0b1110101010100101001001100000,
    0b1111011100000000001101011000, 0b1110100101010010100100010100,
    0b1101100100101001010001001010, 0b1100111000011000110000011001,
    0b1011000001111100001010100001, 0b1010010010111010000110000110,
    0b1001001011011001000001100110, 0b1000010111101000100000110101,
    0b1000001111110000010010001011, 0b0111000010000011111010100001,
    0b0110010001000101110110000110, 0b0101001000100110110001100110,
    0b0100010100010111010000110101, 0b0100001100001111100010001011,
    0b0011100010000100000111111001, 0b0010110001000010001011011110,
    0b0010000011001110011100001011, 0b0001101000100001001100111110,
    0b0001000010110101101001010101, 0b0000110100010000101101101101,
    0b0000101100001000011111010011, 0b0000010001110011100101110010,
    0b0000001001101011010111001100, 0b0000000110011100111010111000],
   [0b0111111111111000000000000000, 0b1011111100000111110000000000,
    0b1101110011000110001110000000, 0b1110101100100100001101100000,
    0b1111011010000001001001011000, 0b1110100011010011100000010100,
    0b1101100100101001010001001010, 0b1101001000111100110000100001,
    0b1010110001011000001010011001, 0b1010010010111010000110000110,
    0b1001001101011000000101100110, 0b1000010111101000100000110101,
    0b1000001111110000010010001011, 0b0111000100000010111110100001,
    0b0110010001000101110110000110, 0b0100111000000010110001011110,
    0b0100010100010111010000110101, 0b0100001100001111100010001011,
    0b0011100010000100000111111001, 0b0011000001100110001011100110,
    0b0010000011001110011100001011, 0b0001101000100001001100111110,
    0b0001000100110100101101010101, 0b0000110010010001101001101101,
    0b0000101010001001011011010011, 0b0000010001110011100101110010,
    0b0000001001101011010111001100, 0b0000000110011100111010111000]]

/-- `solutions` of /repo/srg/database/problem_28_12_6_4.py, entries 92 to 114. -/
def p_28_12_6_4_4 : List (List Nat) :=
  [[0b0111111111111000000000000000, 0b1011111100000111110000000000,
    0b1101110011000110001110000000, 0b1110101110000001001101100000,
    0b1111011000100100001001011000, 0b1110100001110110100000010100,
    0b1101100100101001010001001010, 0b1101001010011001110000100001,
    0b1011000101011000001110100001, 0b1010010010111010000110000110,
    0b1000111001011000000001011110, 0b1000010111101000100000110101,
    0b1000001111110000010010001011, 0b0110110000000010111010011001,
    0b0110010001000101110110000110, 0b0101001100000010110101100110,
    0b0100010100010111010000110101, 0b0100001100001111100010001011,
    0b0011100010000100000111111001, 0b0011000011000011001011100110,
    0b0010000011001110011100001011, 0b0001101000100001001100111110,
    0b0001000110010001101101010101, 0b0000110000110100101001101101,
    0b0000101000101100011011010011, 0b0000010001110011100101110010,
    0b0000001001101011010111001100, 0b0000000110011100111010111000],
   [0b0111111111111000000000000000, 0b1011111100000111110000000000,
    0b1101111010000100001111000000, 0b1110100011100111001000100000,
    0b1111010001010110000100011000, 0b1110101100010000100110010100,
    0b1110010110001000110011000010, 0b1100011000111001110000000101,
    0b1011001001101000001011100010, 0b1001100010111010000000111010,
    0b1001000111011001001000100101, 0b1000110101101000000100011101,
    0b1000001111110000010001001011, 0b0111100000000011011101001001,
    0b0101100001000101110000111010, 0b0101000100100110111000100101,
    0b0100011100000011010010110110, 0b0100001100001111100001001011,
    0b0011000010100101000111100101, 0b0010110000010100001011011101,
    0b0010011010000000101101110110, 0b0010001010001100011110001011,
    0b0001000011100011101010010110, 0b0000110001010010100110101110,
    0b0000100001011110010101010011, 0b0000010100110001101110110001,
    0b0000001011001010110011111000, 0b0000000100111101011101001100],
   [0b0111111111111000000000000000, 0b1011111100000111110000000000,
    0b1101111010000100001111000000, 0b1110100011100111001000100000,
    0b1111010011000010100100011000, 0b1110101100010000100110010100,
    0b1110010100011100010011000010, 0b1100011000111001110000000101,
    0b1011100001101000001101001001, 0b1001100010111010000000111010,
    0b1001000111011001001000100101, 0b1000011101101000000010110110,
    0b1000001111110000010001001011, 0b0111001000000011011011100010,
    0b0101100001000101110000111010, 0b0101000100100110111000100101,
    0b0100110100000011010100011101, 0b0100001100001111100001001011,
    0b0011000010100101000111100101, 0b0010110010000000101011011101,
    0b0010011000010100001101110110, 0b0010001010001100011110001011,
    0b0001000001110111001010010110, 0b0000110001010010100110101110,
    0b0000100011001010110101010011, 0b0000010100110001101110110001,
    0b0000001001011110010011111000, 0b0000000110101001111101001100],
   [0b0111111111111000000000000000, 0b1011111100000111110000000000,
    0b1101111010000100001111000000, 0b1110100101100110001100100000,
    0b1111010001010101001000011000, 0b1110101010010001100010010100,
    0b1110010110001000110011000010, 0b1101001001101010110000100010,
    0b1010011000111000000111000101, 0b1001100100111000001000111010,
    0b1001000111011010000100100101, 0b1000110011101001000000011101,
    0b1000001111110000010001001011, 0b0111100000000011011101001001,
    0b0101000100100101110100100101, 0b0100110000010110110000011101,
    0b0100011100000011010010110110, 0b0100001100001111100001001011,
    0b0011100001000100000111111010, 0b0011000010100110001011100101,
    0b0010011010000000101101110110, 0b0010001010001100011110001011,
    0b0001000101100010101110010110, 0b0000110001010001101010101110,
    0b0000100001011101011001010011, 0b0000010010110011100110110001,
    0b0000001101001000111011111000, 0b0000000010111111010101001100],
   [0b0111111111111000000000000000, 0b1011111100000111110000000000,
    0b1101111010000100001111000000, 0b1110100111000011001100100000,
    0b1111010010100010101000011000, 0b1110101000110100100010010100,
    0b1110010100011100010011000010, 0b1101001001011011010000100010,
    0b1011100001101000001101001001, 0b1001000110111001000100100101,
    0b1000110011011000100000011101, 0b1000011101101000000010110110,
    0b1000001111110000010001001011, 0b0110011000000001110111000101,
    0b0101100100000001111000111010, 0b0101000101000110110100100101,
    0b0100110000100111010000011101, 0b0100001100001111100001001011,
    0b0011100010000010000111111010, 0b0011000011000101001011100101,
    0b0010011000010100001101110110, 0b0010001010001100011110001011,
    0b0001000101010011001110010110, 0b0000110000110010101010101110,
    0b0000100010101010111001010011, 0b0000010001110101100110110001,
    0b0000001100011010011011111000, 0b0000000011101101110101001100],
   [0b0111111111111000000000000000, 0b1011111100000111110000000000,
    0b1101111010000100001111000000, 0b1110100101100110001100100000,
    0b1111010101000001001010011000, 0b1110101010010001100010010100,
    0b1110010010011100110001000010, 0b1101100001101011010000001001,
    0b1010011000111000000111000101, 0b1001100100111000001000111010,
    0b1001000111011010000100100101, 0b1000011011101000100000110110,
    0b1000001111110000010001001011, 0b0111001000000010111101100010,
    0b0101000100100101110100100101, 0b0100110100000010110010011101,
    0b0100011000010111010000110110, 0b0100001100001111100001001011,
    0b0011100001000100000111111010, 0b0011000010100110001011100101,
    0b0010110010000001001101011101, 0b0010001010001100011110001011,
    0b0001000001110110101100010110, 0b0000110001010001101010101110,
    0b0000100101001001011011010011, 0b0000010010110011100110110001,
    0b0000001001011100111001111000, 0b0000000110101011010111001100],
   [0b0111111111111000000000000000, 0b1011111100000111110000000000,
    0b1101111010000100001111000000, 0b1110100111000011001100100000,
    0b1111010100100010001010011000, 0b1110101000110100100010010100,
    0b1110010010011100110001000010, 0b1101100001101011010000001001,
    0b1011001001011000001101100010, 0b1001000110111001000100100101,
    0b1000110101011000000010011101, 0b1000011011101000100000110110,
    0b1000001111110000010001001011, 0b0110011000000001110111000101,
    0b0101100100000001111000111010, 0b0101000101000110110100100101,
    0b0100011000010111010000110110, 0b0100001100001111100001001011,
    0b0011100010000010000111111010, 0b0011000011000101001011100101,
    0b0010110000100100001101011101, 0b0010001010001100011110001011,
    0b0001000011010011101100010110, 0b0000110000110010101010101110,
    0b0000100100101010011011010011, 0b0000010001110101100110110001,
    0b0000001010011010111001111000, 0b0000000101101101010111001100],
   [0b0111111111111000000000000000, 0b1011111100000111110000000000,
    0b1101111010000100001111000000, 0b1110100011100111001000100000,
    0b1111011001000010000100111000, 0b1110101100010000100110010100,
    0b1110110100001000010101001010, 0b1100011000111001110000000110,
    0b1011000001111100001011000001, 0b1001100010111010000000111001,
    0b1001000111011001001000100110, 0b1000010111101000100010010101,
    0b1000001111110000010001001011, 0b0111000010000011111011000001,
    0b0101100001000101110000111001, 0b0101000100100110111000100110,
    0b0100010100010111010010010101, 0b0100001100001111100001001011,
    0b0011000010100101000111100110, 0b0010111000000000001011111110,
    0b0010010010010100101101010101, 0b0010001010001100011110001011,
    0b0001100001100011001100011110, 0b0000110001010010100110101101,
    0b0000101001001010010101110011, 0b0000010100110001101110110010,
    0b0000001100101001011101101100, 0b0000000011011110110011011000],
   [0b0111111111111000000000000000, 0b1011111100000111110000000000,
    0b1101111010000100001111000000, 0b1110100101100110001100100000,
    0b1111011001000001001000111000, 0b1110101010010001100010010100,
    0b1110110010001001010001001010, 0b1101000001111110110000000001,
    0b1010011000111000000111000110, 0b1001100100111000001000111001,
    0b1001000111011010000100100110, 0b1000010111101000100010010101,
    0b1000001111110000010001001011, 0b0111000100000010111111000001,
    0b0101000100100101110100100110, 0b0100111000000010110000111110,
    0b0100010100010111010010010101, 0b0100001100001111100001001011,
    0b0011100001000100000111111001, 0b0011000010100110001011100110,
    0b0010010010010100101101010101, 0b0010001010001100011110001011,
    0b0001100001100011001100011110, 0b0000110001010001101010101101,
    0b0000101001001001011001110011, 0b0000010010110011100110110010,
    0b0000001010101011010101101100, 0b0000000101011100111011011000],
   [0b0111111111111000000000000000, 0b1011111100000111110000000000,
    0b1101111010000100001111000000, 0b1110100111000011001100100000,
    0b1111011000100010001000111000, 0b1110101000110100100010010100,
    0b1110110000101100010001001010, 0b1101000011011011110000000001,
    0b1011000101011000001111000001, 0b1001000110111001000100100110,
    0b1000111001011000000000111110, 0b1000010111101000100010010101,
    0b1000001111110000010001001011, 0b0110011000000001110111000110,
    0b0101100100000001111000111001, 0b0101000101000110110100100110,
    0b0100010100010111010010010101, 0b0100001100001111100001001011,
    0b0011100010000010000111111001, 0b0011000011000101001011100110,
    0b0010010010010100101101010101, 0b0010001010001100011110001011,
    0b0001100001100011001100011110, 0b0000110000110010101010101101,
    0b0000101000101010011001110011, 0b0000010001110101100110110010,
    0b0000001001101101010101101100, 0b0000000110011010111011011000],
   [0b0111111111111000000000000000, 0b1011111100000111110000000000,
    0b1101110011000110001110000000, 0b1110110000110110000001110000,
    0b1111001010100101001001001000, 0b1111000101010010100100100100,
    0b1100100110101001110000001010, 0b1100011001011001110000000101,
    0b1010101001101000001110001010, 0b1010010110011000001110000101,
    0b1001101010011000000001111010, 0b1001010101101000000001110101,
    0b1000001111110000010010010011, 0b0111100000000011011011010001,
    0b0111010000000100110110110010, 0b0100101100000100111001001101,
    0b0100011100000011010100101110, 0b0100001100001111100010010011,
    0b0010100011000101000111001101, 0b0010010011000010101010101110,
    0b0010000011001110011100010011, 0b0001100000110101001000111101,
    0b0001010000110010100101011110, 0b0001000000111110010011100011,
    0b0000101010100001101101100110, 0b0000010101010001101101101001,
    0b0000001010101010110110111000, 0b0000000101011101011011010100],
   [0b0111111111111000000000000000, 0b1011111100000111110000000000,
    0b1101110011000110001110000000, 0b1110110010100101000001110000,
    0b1111001000110110001001001000, 0b1111000111000001100100100100,
    0b1100100100111010110000001010, 0b1100011001011001110000000101,
    0b1011010001101000000110110010, 0b1010010110011000001110000101,
    0b1001101010011000000001111010, 0b1000101101101000001001001101,
    0b1000001111110000010010010011, 0b0111100000000011011011010001,
    0b0110101000000100111110001010, 0b0101010100000100110001110101,
    0b0100011100000011010100101110, 0b0100001100001111100010010011,
    0b0010100001010110000111001101, 0b0010010011000010101010101110,
    0b0010000011001110011100010011, 0b0001100000110101001000111101,
    0b0001010010100001100101011110, 0b0001000010101101010011100011,
    0b0000101000110010101101100110, 0b0000010101010001101101101001,
    0b0000001010101010110110111000, 0b0000000101011101011011010100],
   [0b0111111111111000000000000000, 0b1011111100000111110000000000,
    0b1101110011000110001110000000, 0b1110110010100101000001110000,
    0b1111001001010101001001001000, 0b1111000110100010100100100100,
    0b1100100101011001110000001010, 0b1100011000111010110000000101,
    0b1011010001101000000110110010, 0b1010101010011000001110001010,
    0b1001010110011000000001110101, 0b1000101101101000001001001101,
    0b1000001111110000010010010011, 0b0111100000000011011011010001,
    0b0110010100000100111110000101, 0b0101101000000100110001111010,
    0b0100011100000011010100101110, 0b0100001100001111100010010011,
    0b0010100001010110000111001101, 0b0010010011000010101010101110,
    0b0010000011001110011100010011, 0b0001100000110101001000111101,
    0b0001010010100001100101011110, 0b0001000010101101010011100011,
    0b0000101001010001101101100110, 0b0000010100110010101101101001,
    0b0000001011001001110110111000, 0b0000000100111110011011010100],
   [0b0111111111111000000000000000, 0b1011111100000111110000000000,
    0b1101110011000110001110000000, 0b1110110010100101000001110000,
    0b1111001010100010101001001000, 0b1111000101010101000100100100,
    0b1100100100111010110000001010, 0b1100011001011001110000000101,
    0b1011100001101000001011010001, 0b1010010110011000001110000101,
    0b1001101010011000000001111010, 0b1000011101101000000100101110,
    0b1000001111110000010010010011, 0b0111010000000011010110110010,
    0b0110101000000100111110001010, 0b0101010100000100110001110101,
    0b0100101100000011011001001101, 0b0100001100001111100010010011,
    0b0010100011000010100111001101, 0b0010010001010110001010101110,
    0b0010000011001110011100010011, 0b0001100010100001101000111101,
    0b0001010000110101000101011110, 0b0001000010101101010011100011,
    0b0000101000110010101101100110, 0b0000010101010001101101101001,
    0b0000001000111110010110111000, 0b0000000111001001111011010100],
   [0b0111111111111000000000000000, 0b1011111100000111110000000000,
    0b1101110011000110001110000000, 0b1110110010100101000001110000,
    0b1111001011000001101001001000, 0b1111000100110110000100100100,
    0b1100100101011001110000001010, 0b1100011000111010110000000101,
    0b1011100001101000001011010001, 0b1010101010011000001110001010,
    0b1001010110011000000001110101, 0b1000011101101000000100101110,
    0b1000001111110000010010010011, 0b0111010000000011010110110010,
    0b0110010100000100111110000101, 0b0101101000000100110001111010,
    0b0100101100000011011001001101, 0b0100001100001111100010010011,
    0b0010100011000010100111001101, 0b0010010001010110001010101110,
    0b0010000011001110011100010011, 0b0001100010100001101000111101,
    0b0001010000110101000101011110, 0b0001000010101101010011100011,
    0b0000101001010001101101100110, 0b0000010100110010101101101001,
    0b0000001001011101010110111000, 0b0000000110101010111011010100],
   [0b0111111111111000000000000000, 0b1011111100000111110000000000,
    0b1101110011000110001110000000, 0b1110110011000001100001110000,
    0b1111001010100101001001001000, 0b1111000101010010100100100100,
    0b1100100100111101010000001010, 0b1100011000111010110000000101,
    0b1011100001101000001011010001, 0b1011010010011000000110110010,
    0b1000101110011000001001001101, 0b1000011101101000000100101110,
    0b1000001111110000010010010011, 0b0110101000000011011110001010,
    0b0110010100000100111110000101, 0b0101101000000100110001111010,
    0b0101010100000011010001110101, 0b0100001100001111100010010011,
    0b0010100010100110000111001101, 0b0010010001010110001010101110,
    0b0010000011001110011100010011, 0b0001100010100001101000111101,
    0b0001010001010001100101011110, 0b0001000011001001110011100011,
    0b0000101000110101001101100110, 0b0000010100110010101101101001,
    0b0000001001011101010110111000, 0b0000000110101010111011010100],
   [0b0111111111111000000000000000, 0b1011111100000111110000000000,
    0b1101110011000110001110000000, 0b1110111000100100001001110000,
    0b1111000010110111000001001000, 0b1111001101000000101100100100,
    0b1101010100101000110000110010, 0b1100011001011001110000000101,
    0b1010100001111010000110001010, 0b1010010110011000001110000101,
    0b1001101010011000000001111010, 0b1000100111101001000001001101,
    0b1000001111110000010010010011, 0b0111100000000011011011010001,
    0b0110100010000101110110001010, 0b0100100100010110110001001101,
    0b0100011100000011010100101110, 0b0100001100001111100010010011,
    0b0011010001000100000111110101, 0b0010010011000010101010101110,
    0b0010000011001110011100010011, 0b0001100000110101001000111101,
    0b0001011000100000101101011110, 0b0001001000101100011011100011,
    0b0000100010110011100101100110, 0b0000010101010001101101101001,
    0b0000001010101010110110111000, 0b0000000101011101011011010100],
   [0b0111111111111000000000000000, 0b1011111100000111110000000000,
    0b1101110011000110001110000000, 0b1110111010000001001001110000,
    0b1111000011100101100001001000, 0b1111001100010010001100100100,
    0b1101010100011001010000110010, 0b1100011000111010110000000101,
    0b1011100001101000001011010001, 0b1010100010111100000110001010,
    0b1000100111011000100001001101, 0b1000011101101000000100101110,
    0b1000001111110000010010010011, 0b0110100001000011110110001010,
    0b0110010100000100111110000101, 0b0101101000000100110001111010,
    0b0100100100100111010001001101, 0b0100001100001111100010010011,
    0b0011010010000010000111110101, 0b0010010001010110001010101110,
    0b0010000011001110011100010011, 0b0001100010100001101000111101,
    0b0001011000010001001101011110, 0b0001001010001001011011100011,
    0b0000100001110101100101100110, 0b0000010100110010101101101001,
    0b0000001001011101010110111000, 0b0000000110101010111011010100],
   [0b0111111111111000000000000000, 0b1011111100000111110000000000,
    0b1101110011000110001110000000, 0b1110111000100100001001110000,
    0b1111000110010101001001001000, 0b1111001001100010100100100100,
    0b1101010100101000110000110010, 0b1100101010011001110000001010,
    0b1010100101011000001110001010, 0b1010010010111010000110000101,
    0b1001011001011000000001110101, 0b1000100111101001000001001101,
    0b1000001111110000010010010011, 0b0111100000000011011011010001,
    0b0110010001000101110110000101, 0b0100100100010110110001001101,
    0b0100011100000011010100101110, 0b0100001100001111100010010011,
    0b0011100010000100000111111010, 0b0010010011000010101010101110,
    0b0010000011001110011100010011, 0b0001100000110101001000111101,
    0b0001011000100000101101011110, 0b0001001000101100011011100011,
    0b0000100110010001101101100110, 0b0000010001110011100101101001,
    0b0000001110001000111110111000, 0b0000000001111111010011010100],
   [0b0111111111111000000000000000, 0b1011111100000111110000000000,
    0b1101110011000110001110000000, 0b1110111010000001001001110000,
    0b1111000110100100101001001000, 0b1111001001010011000100100100,
    0b1101010100011001010000110010, 0b1100101000111100110000001010,
    0b1011100001101000001011010001, 0b1010010010111010000110000101,
    0b1000100111011000100001001101, 0b1000011101101000000100101110,
    0b1000001111110000010010010011, 0b0110100100000010111110001010,
    0b0110010001000101110110000101, 0b0101011000000010110001110101,
    0b0100100100100111010001001101, 0b0100001100001111100010010011,
    0b0011100010000100000111111010, 0b0010010001010110001010101110,
    0b0010000011001110011100010011, 0b0001100010100001101000111101,
    0b0001011000010001001101011110, 0b0001001010001001011011100011,
    0b0000100100110100101101100110, 0b0000010001110011100101101001,
    0b0000001100011100011110111000, 0b0000000011101011110011010100],
   [0b0111111111111000000000000000, 0b1011111100000111110000000000,
    0b1101110011000110001110000000, 0b1110111000100100001001110000,
    0b1111001010100011000101001000, 0b1111000101010100101000100100,
    0b1101100100101001010001010010, 0b1100011001011001110000000110,
    0b1010100001111010000110001001, 0b1010010110011000001110000110,
    0b1001101010011000000001111001, 0b1000010111101000100000101101,
    0b1000001111110000010010010011, 0b0111010000000010111010110001,
    0b0110100010000101110110001001, 0b0100101100000010110101001110,
    0b0100010100010111010000101101, 0b0100001100001111100010010011,
    0b0011010001000100000111110110, 0b0010100011000011001011001110,
    0b0010000011001110011100010011, 0b0001101000100001001100111110,
    0b0001010000110100101001011101, 0b0001001000101100011011100011,
    0b0000100010110011100101100101, 0b0000010101010001101101101010,
    0b0000001101001001011111010100, 0b0000000010111110110010111000],
   [0b0111111111111000000000000000, 0b1011111100000111110000000000,
    0b1101110011000110001110000000, 0b1110111010000001001001110000,
    0b1111001001100101000101001000, 0b1111000110010010101000100100,
    0b1101100100101001010001010010, 0b1100011000111010110000000110,
    0b1011010001011000001010110001, 0b1010100010111100000110001001,
    0b1000101101011000000101001110, 0b1000010111101000100000101101,
    0b1000001111110000010010010011, 0b0110100001000011110110001001,
    0b0110010100000100111110000110, 0b0101101000000100110001111001,
    0b0100010100010111010000101101, 0b0100001100001111100010010011,
    0b0011010010000010000111110110, 0b0010100001100110001011001110,
    0b0010000011001110011100010011, 0b0001101000100001001100111110,
    0b0001010010010001101001011101, 0b0001001010001001011011100011,
    0b0000100001110101100101100101, 0b0000010100110010101101101010,
    0b0000001100101010011111010100, 0b0000000011011101110010111000],
   [0b0111111111111000000000000000, 0b1011111100000111110000000000,
    0b1101110011000110001110000000, 0b1110111000100100001001110000,
    0b1111001110000001001101001000, 0b1111000001110110100000100100,
    0b1101100100101001010001010010, 0b1100101010011001110000001001,
    0b1010100101011000001110001001, 0b1010010010111010000110000110,
    0b1001011001011000000001110110, 0b1000010111101000100000101101,
    0b1000001111110000010010010011, 0b0111010000000010111010110001,
    0b0110010001000101110110000110, 0b0100101100000010110101001110,
    0b0100010100010111010000101101, 0b0100001100001111100010010011,
    0b0011100010000100000111111001, 0b0010100011000011001011001110,
    0b0010000011001110011100010011, 0b0001101000100001001100111110,
    0b0001010000110100101001011101, 0b0001001000101100011011100011,
    0b0000100110010001101101100101, 0b0000010001110011100101101010,
    0b0000001001101011010111010100, 0b0000000110011100111010111000]]

/-- `solutions` of /repo/srg/database/problem_28_12_6_4.py, entries 115 to 137. -/
def p_28_12_6_4_5 : List (List Nat) :=
  [[0b0111111111111000000000000000, 0b1011111100000111110000000000,
    0b1101110011000110001110000000, 0b1110111010000001001001110000,
    0b1111001100100100001101001000, 0b1111000011010011100000100100,
    0b1101100100101001010001010010, 0b1100101000111100110000001001,
    0b1011010001011000001010110001, 0b1010010010111010000110000110,
    0b1000101101011000000101001110, 0b1000010111101000100000101101,
    0b1000001111110000010010010011, 0b0110100100000010111110001001,
    0b0110010001000101110110000110, 0b0101011000000010110001110110,
    0b0100010100010111010000101101, 0b0100001100001111100010010011,
    0b0011100010000100000111111001, 0b0010100001100110001011001110,
    0b0010000011001110011100010011, 0b0001101000100001001100111110,
    0b0001010010010001101001011101, 0b0001001010001001011011100011,
    0b0000100100110100101101100101, 0b0000010001110011100101101010,
    0b0000001001101011010111010100, 0b0000000110011100111010111000],
   [0b0111111111111000000000000000, 0b1011111100000111110000000000,
    0b1101110011000110001110000000, 0b1110111100000000001101110000,
    0b1111001010100101001001001000, 0b1111000101010010100100100100,
    0b1101100100101001010001010010, 0b1101011000011000110000110001,
    0b1010100001111100001010001001, 0b1010010010111010000110000110,
    0b1000101011011001000001001110, 0b1000010111101000100000101101,
    0b1000001111110000010010010011, 0b0110100010000011111010001001,
    0b0110010001000101110110000110, 0b0100101000100110110001001110,
    0b0100010100010111010000101101, 0b0100001100001111100010010011,
    0b0011100010000100000111111001, 0b0011010001000010001011110110,
    0b0010000011001110011100010011, 0b0001101000100001001100111110,
    0b0001010100010000101101011101, 0b0001001100001000011111100011,
    0b0000100010110101101001100101, 0b0000010001110011100101101010,
    0b0000001001101011010111010100, 0b0000000110011100111010111000],
   [0b0111111111111000000000000000, 0b1011111100000111110000000000,
    0b1101111010000100001111000000, 0b1110110001100110001000110000,
    0b1111000011010111000100001000, 0b1111001100100000101010100100,
    0b1110010110001000110011000010, 0b1100011000111001110000000101,
    0b1010101001011000000111001010, 0b1001100010111010000000111010,
    0b1001010101011000001000110101, 0b1000100111101001000100001101,
    0b1000001111110000010001010011, 0b0111100000000011011101010001,
    0b0101100001000101110000111010, 0b0100100100010110110100001101,
    0b0100011100000011010010101110, 0b0100001100001111100001010011,
    0b0011010000100100000111110101, 0b0010100010010101001011001101,
    0b0010011010000000101101101110, 0b0010001010001100011110010011,
    0b0001010001100010101010011110, 0b0001000001101110011001100011,
    0b0000100011010011100110100110, 0b0000010100110001101110101001,
    0b0000001011001010110011111000, 0b0000000100111101011101010100],
   [0b0111111111111000000000000000, 0b1011111100000111110000000000,
    0b1101111010000100001111000000, 0b1110110011000011001000110000,
    0b1111000011100110100100001000, 0b1111001100010001001010100100,
    0b1110010100011100010011000010, 0b1100011000111001110000000101,
    0b1011100001101000001101010001, 0b1001100010111010000000111010,
    0b1000100111011000100100001101, 0b1000011101101000000010101110,
    0b1000001111110000010001010011, 0b0110101000000010110111001010,
    0b0101100001000101110000111010, 0b0101010100000010111000110101,
    0b0100100100100111010100001101, 0b0100001100001111100001010011,
    0b0011010010000001000111110101, 0b0010100010100100101011001101,
    0b0010011000010100001101101110, 0b0010001010001100011110010011,
    0b0001010001010011001010011110, 0b0001000011001011011001100011,
    0b0000100001110110100110100110, 0b0000010100110001101110101001,
    0b0000001001011110010011111000, 0b0000000110101001111101010100],
   [0b0111111111111000000000000000, 0b1011111100000111110000000000,
    0b1101111010000100001111000000, 0b1110110001100110001000110000,
    0b1111000101010101001100001000, 0b1111001010100010100010100100,
    0b1110010110001000110011000010, 0b1100101001011001110000001010,
    0b1010011000111000000111000101, 0b1001100100111000001000111010,
    0b1001010011011010000000110101, 0b1000100111101001000100001101,
    0b1000001111110000010001010011, 0b0111100000000011011101010001,
    0b0101010000100101110000110101, 0b0100100100010110110100001101,
    0b0100011100000011010010101110, 0b0100001100001111100001010011,
    0b0011100001000100000111111010, 0b0010100010010101001011001101,
    0b0010011010000000101101101110, 0b0010001010001100011110010011,
    0b0001010001100010101010011110, 0b0001000001101110011001100011,
    0b0000100101010001101110100110, 0b0000010010110011100110101001,
    0b0000001101001000111011111000, 0b0000000010111111010101010100],
   [0b0111111111111000000000000000, 0b1011111100000111110000000000,
    0b1101111010000100001111000000, 0b1110110011000011001000110000,
    0b1111000110100010101100001000, 0b1111001001010101000010100100,
    0b1110010100011100010011000010, 0b1100101000111010110000001010,
    0b1011100001101000001101010001, 0b1001010010111001000000110101,
    0b1000100111011000100100001101, 0b1000011101101000000010101110,
    0b1000001111110000010001010011, 0b0110011000000001110111000101,
    0b0101100100000001111000111010, 0b0101010001000110110000110101,
    0b0100100100100111010100001101, 0b0100001100001111100001010011,
    0b0011100010000010000111111010, 0b0010100010100100101011001101,
    0b0010011000010100001101101110, 0b0010001010001100011110010011,
    0b0001010001010011001010011110, 0b0001000011001011011001100011,
    0b0000100100110010101110100110, 0b0000010001110101100110101001,
    0b0000001100011010011011111000, 0b0000000011101101110101010100],
   [0b0111111111111000000000000000, 0b1011111100000111110000000000,
    0b1101111010000100001111000000, 0b1110110101000010001100110000,
    0b1111000101100101001010001000, 0b1111001010010010100100100100,
    0b1110010010011100110001000010, 0b1101100001101011010000010001,
    0b1010011000111000000111000101, 0b1001100100111000001000111010,
    0b1000100111011001000010001101, 0b1000011011101000100000101110,
    0b1000001111110000010001010011, 0b0110101000000001111011001010,
    0b0101010100000001110100110101, 0b0100100100100110110010001101,
    0b0100011000010111010000101110, 0b0100001100001111100001010011,
    0b0011100001000100000111111010, 0b0011010010000010001011110101,
    0b0010100010100101001101001101, 0b0010001010001100011110010011,
    0b0001010001010010101100011110, 0b0001000101001010011101100011,
    0b0000100001110101101010100110, 0b0000010010110011100110101001,
    0b0000001001011100111001111000, 0b0000000110101011010111010100],
   [0b0111111111111000000000000000, 0b1011111100000111110000000000,
    0b1101111010000100001111000000, 0b1110110101000010001100110000,
    0b1111000110100011001010001000, 0b1111001001010100100100100100,
    0b1110010010011100110001000010, 0b1101100001101011010000010001,
    0b1010101000111000001011001010, 0b1001010100111000000100110101,
    0b1000100111011001000010001101, 0b1000011011101000100000101110,
    0b1000001111110000010001010011, 0b0110011000000001110111000101,
    0b0101100100000001111000111010, 0b0100100100100110110010001101,
    0b0100011000010111010000101110, 0b0100001100001111100001010011,
    0b0011100010000010000111111010, 0b0011010001000100001011110101,
    0b0010100010100101001101001101, 0b0010001010001100011110010011,
    0b0001010001010010101100011110, 0b0001000101001010011101100011,
    0b0000100010110011101010100110, 0b0000010001110101100110101001,
    0b0000001010011010111001111000, 0b0000000101101101010111010100],
   [0b0111111111111000000000000000, 0b1011111100000111110000000000,
    0b1101111010000100001111000000, 0b1110110001100110001000110000,
    0b1111001011000011000100101000, 0b1111000100110100101010000100,
    0b1110100110001001010101000010, 0b1100011000111001110000000110,
    0b1010101001011000000111001001, 0b1001100010111010000000111001,
    0b1001010101011000001000110110, 0b1000010111101000100010001101,
    0b1000001111110000010001010011, 0b0111010000000010111011010001,
    0b0101100001000101110000111001, 0b0100101100000010110100101110,
    0b0100010100010111010010001101, 0b0100001100001111100001010011,
    0b0011010000100100000111110110, 0b0010101010000001001011101110,
    0b0010010010010100101101001101, 0b0010001010001100011110010011,
    0b0001100001100011001100011110, 0b0001000001101110011001100011,
    0b0000100011010011100110100101, 0b0000010100110001101110101010,
    0b0000001100101001011101110100, 0b0000000011011110110011011000],
   [0b0111111111111000000000000000, 0b1011111100000111110000000000,
    0b1101111010000100001111000000, 0b1110110011000011001000110000,
    0b1111001001100110000100101000, 0b1111000110010001101010000100,
    0b1110100100101100010101000010, 0b1100011000111001110000000110,
    0b1011010001011000001011010001, 0b1001100010111010000000111001,
    0b1000101101011000000100101110, 0b1000010111101000100010001101,
    0b1000001111110000010001010011, 0b0110101000000010110111001001,
    0b0101100001000101110000111001, 0b0101010100000010111000110110,
    0b0100010100010111010010001101, 0b0100001100001111100001010011,
    0b0011010010000001000111110110, 0b0010101000100100001011101110,
    0b0010010010010100101101001101, 0b0010001010001100011110010011,
    0b0001100001100011001100011110, 0b0001000011001011011001100011,
    0b0000100001110110100110100101, 0b0000010100110001101110101010,
    0b0000001100101001011101110100, 0b0000000011011110110011011000],
   [0b0111111111111000000000000000, 0b1011111100000111110000000000,
    0b1101111010000100001111000000, 0b1110110001100110001000110000,
    0b1111001101000001001100101000, 0b1111000010110110100010000100,
    0b1110100110001001010101000010, 0b1100101001011001110000001001,
    0b1010011000111000000111000110, 0b1001100100111000001000111001,
    0b1001010011011010000000110110, 0b1000010111101000100010001101,
    0b1000001111110000010001010011, 0b0111010000000010111011010001,
    0b0101010000100101110000110110, 0b0100101100000010110100101110,
    0b0100010100010111010010001101, 0b0100001100001111100001010011,
    0b0011100001000100000111111001, 0b0010101010000001001011101110,
    0b0010010010010100101101001101, 0b0010001010001100011110010011,
    0b0001100001100011001100011110, 0b0001000001101110011001100011,
    0b0000100101010001101110100101, 0b0000010010110011100110101010,
    0b0000001010101011010101110100, 0b0000000101011100111011011000],
   [0b0111111111111000000000000000, 0b1011111100000111110000000000,
    0b1101111010000100001111000000, 0b1110110011000011001000110000,
    0b1111001100100010001100101000, 0b1111000011010101100010000100,
    0b1110100100101100010101000010, 0b1100101000111010110000001001,
    0b1011010001011000001011010001, 0b1001010010111001000000110110,
    0b1000101101011000000100101110, 0b1000010111101000100010001101,
    0b1000001111110000010001010011, 0b0110011000000001110111000110,
    0b0101100100000001111000111001, 0b0101010001000110110000110110,
    0b0100010100010111010010001101, 0b0100001100001111100001010011,
    0b0011100010000010000111111001, 0b0010101000100100001011101110,
    0b0010010010010100101101001101, 0b0010001010001100011110010011,
    0b0001100001100011001100011110, 0b0001000011001011011001100011,
    0b0000100100110010101110100101, 0b0000010001110101100110101010,
    0b0000001001101101010101110100, 0b0000000110011010111011011000],
   [0b0111111111111000000000000000, 0b1011111100000111110000000000,
    0b1101111010000100001111000000, 0b1110110101000010001100110000,
    0b1111001001100101001000101000, 0b1111000110010010100110000100,
    0b1110100010101101010001000010, 0b1101010001011010110000010001,
    0b1010011000111000000111000110, 0b1001100100111000001000111001,
    0b1000101011011001000000101110, 0b1000010111101000100010001101,
    0b1000001111110000010001010011, 0b0110101000000001111011001001,
    0b0101010100000001110100110110, 0b0100101000100110110000101110,
    0b0100010100010111010010001101, 0b0100001100001111100001010011,
    0b0011100001000100000111111001, 0b0011010010000010001011110110,
    0b0010010010010100101101001101, 0b0010001010001100011110010011,
    0b0001100001100011001100011110, 0b0001000101001010011101100011,
    0b0000100001110101101010100101, 0b0000010010110011100110101010,
    0b0000001010101011010101110100, 0b0000000101011100111011011000],
   [0b0111111111111000000000000000, 0b1011111100000111110000000000,
    0b1101111010000100001111000000, 0b1110110101000010001100110000,
    0b1111001010100011001000101000, 0b1111000101010100100110000100,
    0b1110100010101101010001000010, 0b1101010001011010110000010001,
    0b1010101000111000001011001001, 0b1001010100111000000100110110,
    0b1000101011011001000000101110, 0b1000010111101000100010001101,
    0b1000001111110000010001010011, 0b0110011000000001110111000110,
    0b0101100100000001111000111001, 0b0100101000100110110000101110,
    0b0100010100010111010010001101, 0b0100001100001111100001010011,
    0b0011100010000010000111111001, 0b0011010001000100001011110110,
    0b0010010010010100101101001101, 0b0010001010001100011110010011,
    0b0001100001100011001100011110, 0b0001000101001010011101100011,
    0b0000100010110011101010100101, 0b0000010001110101100110101010,
    0b0000001001101101010101110100, 0b0000000110011010111011011000],
   [0b0111111111111000000000000000, 0b1011111100000111110000000000,
    0b1101111100000000001111100000, 0b1110110011000110001100010000,
    0b1111001010100101001010001000, 0b1111000101010010100101000100,
    0b1110100100101001010010100010, 0b1110011000011000110001100001,
    0b1001100001111100001000011001, 0b1001010010111010000100010110,
    0b1000101011011001000010001110, 0b1000010111101000100001001101,
    0b1000001111110000010000110011, 0b0101100010000011111000011001,
    0b0101010001000101110100010110, 0b0100101000100110110010001110,
    0b0100010100010111010001001101, 0b0100001100001111100000110011,
    0b0011100010000100000111111001, 0b0011010001000010001011110110,
    0b0010101000100001001101101110, 0b0010010100010000101110101101,
    0b0010001100001000011111010011, 0b0001000011001110011100100011,
    0b0000100010110101101011000101, 0b0000010001110011100111001010,
    0b0000001001101011010110110100, 0b0000000110011100111001111000],
   [0b0111111111111000000000000000, 0b1011111100000111110000000000,
    0b1101111010000100001111000000, 0b1110111001000010001000111000,
    0b1111000011100111000100100000, 0b1111001100010000101010010100,
    0b1111010100001000011001001010, 0b1100011000111001110000000110,
    0b1010100001111100000111000001, 0b1001100010111010000000111001,
    0b1000100111011001000100100110, 0b1000010111101000100010010101,
    0b1000001111110000010001001011, 0b0110100010000011110111000001,
    0b0101100001000101110000111001, 0b0100100100100110110100100110,
    0b0100010100010111010010010101, 0b0100001100001111100001001011,
    0b0011011000000000000111111110, 0b0010100010100101001011100110,
    0b0010010010010100101101010101, 0b0010001010001100011110001011,
    0b0001100001100011001100011110, 0b0001010001010010101010101101,
    0b0001001001001010011001110011, 0b0000010100110001101110110010,
    0b0000001100101001011101101100, 0b0000000011011110110011011000],
   [0b0111111111111000000000000000, 0b1011111100000111110000000000,
    0b1101111010000100001111000000, 0b1110111001000010001000111000,
    0b1111000101100101001100100000, 0b1111001010010010100010010100,
    0b1111010010001010010001001010, 0b1100100001111101110000000001,
    0b1010011000111000000111000110, 0b1001100100111000001000111001,
    0b1000100111011001000100100110, 0b1000010111101000100010010101,
    0b1000001111110000010001001011, 0b0110100100000001111111000001,
    0b0101011000000001110000111110, 0b0100100100100110110100100110,
    0b0100010100010111010010010101, 0b0100001100001111100001001011,
    0b0011100001000100000111111001, 0b0010100010100101001011100110,
    0b0010010010010100101101010101, 0b0010001010001100011110001011,
    0b0001100001100011001100011110, 0b0001010001010010101010101101,
    0b0001001001001010011001110011, 0b0000010010110011100110110010,
    0b0000001010101011010101101100, 0b0000000101011100111011011000],
   [0b0111111111111000000000000000, 0b1011111100000111110000000000,
    0b1101111010000100001111000000, 0b1110111001000010001000111000,
    0b1111000110100011001100100000, 0b1111001001010100100010010100,
    0b1111010001001100010001001010, 0b1100100010111011110000000001,
    0b1010100100111000001111000001, 0b1001011000111000000000111110,
    0b1000100111011001000100100110, 0b1000010111101000100010010101,
    0b1000001111110000010001001011, 0b0110011000000001110111000110,
    0b0101100100000001111000111001, 0b0100100100100110110100100110,
    0b0100010100010111010010010101, 0b0100001100001111100001001011,
    0b0011100010000010000111111001, 0b0010100010100101001011100110,
    0b0010010010010100101101010101, 0b0010001010001100011110001011,
    0b0001100001100011001100011110, 0b0001010001010010101010101101,
    0b0001001001001010011001110011, 0b0000010001110101100110110010,
    0b0000001001101101010101101100, 0b0000000110011010111011011000],
   [0b0111111111111000000000000000, 0b1011111100000111110000000000,
    0b1101110011000110001110000000, 0b1110110010100101000001110000,
    0b1111011000100010001001001100, 0b1111100101000001001001000011,
    0b1100100100111010110000001100, 0b1100011001011001110000000011,
    0b1011000001111100000110110000, 0b1010010110011000001110000011,
    0b1001101010011000000001111100, 0b1000001111101000100100101010,
    0b1000001111110000010010010101, 0b0111000010000011110110110000,
    0b0110101000000100111110001100, 0b0101010100000100110001110011,
    0b0100001100010111010100101010, 0b0100001100001111100010010101,
    0b0010110001000010000111001111, 0b0010000011010110101010101010,
    0b0010000011001110011100010101, 0b0001110000100001001000111111,
    0b0001000010110101100101011010, 0b0001000010101101010011100101,
    0b0000101000110010101101100110, 0b0000101000101010011011011001,
    0b0000010101010001101101101001, 0b0000010101001001011011010110],
   [0b0111111111111000000000000000, 0b1011111100000111110000000000,
    0b1101110011000110001110000000, 0b1110110010100101000001110000,
    0b1111011001000001001001001100, 0b1111100100100010001001000011,
    0b1100100101011001110000001100, 0b1100011000111010110000000011,
    0b1011000001111100000110110000, 0b1010101010011000001110001100,
    0b1001010110011000000001110011, 0b1000001111101000100100101010,
    0b1000001111110000010010010101, 0b0111000010000011110110110000,
    0b0110010100000100111110000011, 0b0101101000000100110001111100,
    0b0100001100010111010100101010, 0b0100001100001111100010010101,
    0b0010110001000010000111001111, 0b0010000011010110101010101010,
    0b0010000011001110011100010101, 0b0001110000100001001000111111,
    0b0001000010110101100101011010, 0b0001000010101101010011100101,
    0b0000101001010001101101100110, 0b0000101001001001011011011001,
    0b0000010100110010101101101001, 0b0000010100101010011011010110],
   [0b0111111111111000000000000000, 0b1011111100000111110000000000,
    0b1101110011000110001110000000, 0b1110110010100101000001110000,
    0b1111011000010100001001001100, 0b1111101010000000100100101010,
    0b1100110100011000110000001110, 0b1100001001111011110000000001,
    0b1011010001101000000110110010, 0b1010000110111010001110000001,
    0b1001000111011001000001110001, 0b1000101101101000001001001101,
    0b1000001111110000010010010110, 0b0111100000000011011011010100,
    0b0110000101000101111110000001, 0b0101000100100110110001110001,
    0b0100011100000011010100101011, 0b0100001100001111100010010110,
    0b0010100001010110000111001101, 0b0010010011000010101010101011,
    0b0010000011001110011100010110, 0b0001100000110101001000111101,
    0b0001010010100001100101011011, 0b0001000010101101010011100110,
    0b0000111000010000101101100111, 0b0000101000011100011011011010,
    0b0000011010001000110110111100, 0b0000000101110011101101101000],
   [0b0111111111111000000000000000, 0b1011111100000111110000000000,
    0b1101110011000110001110000000, 0b1110110010100101000001110000,
    0b1111011010000000101001001100, 0b1111101000010100000100101010,
    0b1100110100011000110000001110, 0b1100001001111011110000000001,
    0b1011100001101000001011010100, 0b1010000110111010001110000001,
    0b1001000111011001000001110001, 0b1000011101101000000100101011,
    0b1000001111110000010010010110, 0b0111010000000011010110110010,
    0b0110000101000101111110000001, 0b0101000100100110110001110001,
    0b0100101100000011011001001101, 0b0100001100001111100010010110,
    0b0010100011000010100111001101, 0b0010010001010110001010101011,
    0b0010000011001110011100010110, 0b0001100010100001101000111101,
    0b0001010000110101000101011011, 0b0001000010101101010011100110,
    0b0000111000010000101101100111, 0b0000101010001000111011011010,
    0b0000011000011100010110111100, 0b0000000101110011101101101000],
   [0b0111111111111000000000000000, 0b1011111100000111110000000000,
    0b1101110011000110001110000000, 0b1110111000100100001001110000,
    0b1111010010100011000001001100, 0b1111100101000001001001000011,
    0b1101000100111100110000110000, 0b1100011001011001110000000011,
    0b1010100001111010000110001100, 0b1010010110011000001110000011,
    0b1001101010011000000001111100, 0b1000001111101000100100101010,
    0b1000001111110000010010010101, 0b0111001000000010111110110000,
    0b0110100010000101110110001100, 0b0100110100000010110001001111,
    0b0100001100010111010100101010, 0b0100001100001111100010010101,
    0b0011010001000100000111110011, 0b0010000011010110101010101010,
    0b0010000011001110011100010101, 0b0001110000100001001000111111,
    0b0001001000110100101101011010, 0b0001001000101100011011100101,
    0b0000100010110011100101100110, 0b0000100010101011010011011001,
    0b0000010101010001101101101001, 0b0000010101001001011011010110]]

/-- `solutions` of /repo/srg/database/problem_28_12_6_4.py, entries 138 to 160. -/
def p_28_12_6_4_6 : List (List Nat) :=
  [[0b0111111111111000000000000000, 0b1011111100000111110000000000,
    0b1101110011000110001110000000, 0b1110111010000001001001110000,
    0b1111010001100101000001001100, 0b1111100100100010001001000011,
    0b1101000110011001110000110000, 0b1100011000111010110000000011,
    0b1011001001011000001110110000, 0b1010100010111100000110001100,
    0b1000110101011000000001001111, 0b1000001111101000100100101010,
    0b1000001111110000010010010101, 0b0110100001000011110110001100,
    0b0110010100000100111110000011, 0b0101101000000100110001111100,
    0b0100001100010111010100101010, 0b0100001100001111100010010101,
    0b0011010010000010000111110011, 0b0010000011010110101010101010,
    0b0010000011001110011100010101, 0b0001110000100001001000111111,
    0b0001001010010001101101011010, 0b0001001010001001011011100101,
    0b0000100001110101100101100110, 0b0000100001101101010011011001,
    0b0000010100110010101101101001, 0b0000010100101010011011010110],
   [0b0111111111111000000000000000, 0b1011111100000111110000000000,
    0b1101110011000110001110000000, 0b1110111000100100001001110000,
    0b1111010110000001001001001100, 0b1111100001100011000001000011,
    0b1101000100111100110000110000, 0b1100101010011001110000001100,
    0b1010100101011000001110001100, 0b1010010010111010000110000011,
    0b1001011001011000000001110011, 0b1000001111101000100100101010,
    0b1000001111110000010010010101, 0b0111001000000010111110110000,
    0b0110010001000101110110000011, 0b0100110100000010110001001111,
    0b0100001100010111010100101010, 0b0100001100001111100010010101,
    0b0011100010000100000111111100, 0b0010000011010110101010101010,
    0b0010000011001110011100010101, 0b0001110000100001001000111111,
    0b0001001000110100101101011010, 0b0001001000101100011011100101,
    0b0000100110010001101101100110, 0b0000100110001001011011011001,
    0b0000010001110011100101101001, 0b0000010001101011010011010110],
   [0b0111111111111000000000000000, 0b1011111100000111110000000000,
    0b1101110011000110001110000000, 0b1110111010000001001001110000,
    0b1111010100100100001001001100, 0b1111100001100011000001000011,
    0b1101000110011001110000110000, 0b1100101000111100110000001100,
    0b1011001001011000001110110000, 0b1010010010111010000110000011,
    0b1000110101011000000001001111, 0b1000001111101000100100101010,
    0b1000001111110000010010010101, 0b0110100100000010111110001100,
    0b0110010001000101110110000011, 0b0101011000000010110001110011,
    0b0100001100010111010100101010, 0b0100001100001111100010010101,
    0b0011100010000100000111111100, 0b0010000011010110101010101010,
    0b0010000011001110011100010101, 0b0001110000100001001000111111,
    0b0001001010010001101101011010, 0b0001001010001001011011100101,
    0b0000100100110100101101100110, 0b0000100100101100011011011001,
    0b0000010001110011100101101001, 0b0000010001101011010011010110],
   [0b0111111111111000000000000000, 0b1011111100000111110000000000,
    0b1101110011000110001110000000, 0b1110111000100100001001110000,
    0b1111010010010101000001001100, 0b1111101010000000100100101010,
    0b1101010100101000110000110010, 0b1100001001111011110000000001,
    0b1010110001011000000110001110, 0b1010000110111010001110000001,
    0b1001001101011000001001110001, 0b1000100111101001000001001101,
    0b1000001111110000010010010110, 0b0111100000000011011011010100,
    0b0110000101000101111110000001, 0b0100100100010110110001001101,
    0b0100011100000011010100101011, 0b0100001100001111100010010110,
    0b0011000001100110000111110001, 0b0010010011000010101010101011,
    0b0010000011001110011100010110, 0b0001100000110101001000111101,
    0b0001011000100000101101011011, 0b0001001000101100011011100110,
    0b0000110010010001100101100111, 0b0000100010011101010011011010,
    0b0000011010001000110110111100, 0b0000000101110011101101101000],
   [0b0111111111111000000000000000, 0b1011111100000111110000000000,
    0b1101110011000110001110000000, 0b1110111010000001001001110000,
    0b1111010010100100100001001100, 0b1111101000010100000100101010,
    0b1101010100011001010000110010, 0b1100001001111011110000000001,
    0b1011100001101000001011010100, 0b1010000110111010001110000001,
    0b1000100111011000100001001101, 0b1000011101101000000100101011,
    0b1000001111110000010010010110, 0b0110110000000010110110001110,
    0b0110000101000101111110000001, 0b0101001100000010111001110001,
    0b0100100100100111010001001101, 0b0100001100001111100010010110,
    0b0011000011000011000111110001, 0b0010010001010110001010101011,
    0b0010000011001110011100010110, 0b0001100010100001101000111101,
    0b0001011000010001001101011011, 0b0001001010001001011011100110,
    0b0000110000110100100101100111, 0b0000100010101100110011011010,
    0b0000011000011100010110111100, 0b0000000101110011101101101000],
   [0b0111111111111000000000000000, 0b1011111100000111110000000000,
    0b1101110011000110001110000000, 0b1110111000100100001001110000,
    0b1111011010000001000101001100, 0b1111100010010100100000101010,
    0b1101100100101001010001010100, 0b1100001001111011110000000001,
    0b1010110001011000000110001110, 0b1010000110111010001110000001,
    0b1001001101011000001001110001, 0b1000010111101000100000101011,
    0b1000001111110000010010010110, 0b0111010000000010111010110010,
    0b0110000101000101111110000001, 0b0100101100000010110101001101,
    0b0100010100010111010000101011, 0b0100001100001111100010010110,
    0b0011000001100110000111110001, 0b0010100011000011001011001101,
    0b0010000011001110011100010110, 0b0001101000100001001100111101,
    0b0001010000110100101001011011, 0b0001001000101100011011100110,
    0b0000110010010001100101100111, 0b0000101010001001010111011010,
    0b0000010010011100110010111100, 0b0000000101110011101101101000],
   [0b0111111111111000000000000000, 0b1011111100000111110000000000,
    0b1101110011000110001110000000, 0b1110111010000001001001110000,
    0b1111011000100100000101001100, 0b1111100010010100100000101010,
    0b1101100100101001010001010100, 0b1100001001111011110000000001,
    0b1011010001011000001010110010, 0b1010000110111010001110000001,
    0b1000101101011000000101001101, 0b1000010111101000100000101011,
    0b1000001111110000010010010110, 0b0110110000000010110110001110,
    0b0110000101000101111110000001, 0b0101001100000010111001110001,
    0b0100010100010111010000101011, 0b0100001100001111100010010110,
    0b0011000011000011000111110001, 0b0010100001100110001011001101,
    0b0010000011001110011100010110, 0b0001101000100001001100111101,
    0b0001010010010001101001011011, 0b0001001010001001011011100110,
    0b0000110000110100100101100111, 0b0000101000101100010111011010,
    0b0000010010011100110010111100, 0b0000000101110011101101101000],
   [0b0111111111111000000000000000, 0b1011111100000111110000000000,
    0b1101111010000100001111000000, 0b1110110001100110001000110000,
    0b1111010011000011000100001100, 0b1111100100100001001100000011,
    0b1110000110011100110011000000, 0b1100011000111001110000000011,
    0b1010101001011000000111001100, 0b1001100010111010000000111100,
    0b1001010101011000001000110011, 0b1000001111101000100010101010,
    0b1000001111110000010001010101, 0b0111001000000010111011110000,
    0b0101100001000101110000111100, 0b0100110100000010110100001111,
    0b0100001100010111010010101010, 0b0100001100001111100001010101,
    0b0011010000100100000111110011, 0b0010110010000001001011001111,
    0b0010001010010100101101101010, 0b0010001010001100011110010101,
    0b0001000001110110101010011010, 0b0001000001101110011001100101,
    0b0000100011010011100110100110, 0b0000100011001011010101011001,
    0b0000010100110001101110101001, 0b0000010100101001011101010110],
   [0b0111111111111000000000000000, 0b1011111100000111110000000000,
    0b1101111010000100001111000000, 0b1110110011000011001000110000,
    0b1111010001100110000100001100, 0b1111100100100001001100000011,
    0b1110000110011100110011000000, 0b1100011000111001110000000011,
    0b1011001001011000001011110000, 0b1001100010111010000000111100,
    0b1000110101011000000100001111, 0b1000001111101000100010101010,
    0b1000001111110000010001010101, 0b0110101000000010110111001100,
    0b0101100001000101110000111100, 0b0101010100000010111000110011,
    0b0100001100010111010010101010, 0b0100001100001111100001010101,
    0b0011010010000001000111110011, 0b0010110000100100001011001111,
    0b0010001010010100101101101010, 0b0010001010001100011110010101,
    0b0001000011010011101010011010, 0b0001000011001011011001100101,
    0b0000100001110110100110100110, 0b0000100001101110010101011001,
    0b0000010100110001101110101001, 0b0000010100101001011101010110],
   [0b0111111111111000000000000000, 0b1011111100000111110000000000,
    0b1101111010000100001111000000, 0b1110110001100110001000110000,
    0b1111010101000001001100001100, 0b1111100010100011000100000011,
    0b1110000110011100110011000000, 0b1100101001011001110000001100,
    0b1010011000111000000111000011, 0b1001100100111000001000111100,
    0b1001010011011010000000110011, 0b1000001111101000100010101010,
    0b1000001111110000010001010101, 0b0111001000000010111011110000,
    0b0101010000100101110000110011, 0b0100110100000010110100001111,
    0b0100001100010111010010101010, 0b0100001100001111100001010101,
    0b0011100001000100000111111100, 0b0010110010000001001011001111,
    0b0010001010010100101101101010, 0b0010001010001100011110010101,
    0b0001000001110110101010011010, 0b0001000001101110011001100101,
    0b0000100101010001101110100110, 0b0000100101001001011101011001,
    0b0000010010110011100110101001, 0b0000010010101011010101010110],
   [0b0111111111111000000000000000, 0b1011111100000111110000000000,
    0b1101111010000100001111000000, 0b1110110011000011001000110000,
    0b1111010100100010001100001100, 0b1111100001100101000100000011,
    0b1110000110011100110011000000, 0b1100101000111010110000001100,
    0b1011001001011000001011110000, 0b1001010010111001000000110011,
    0b1000110101011000000100001111, 0b1000001111101000100010101010,
    0b1000001111110000010001010101, 0b0110011000000001110111000011,
    0b0101100100000001111000111100, 0b0101010001000110110000110011,
    0b0100001100010111010010101010, 0b0100001100001111100001010101,
    0b0011100010000010000111111100, 0b0010110000100100001011001111,
    0b0010001010010100101101101010, 0b0010001010001100011110010101,
    0b0001000011010011101010011010, 0b0001000011001011011001100101,
    0b0000100100110010101110100110, 0b0000100100101010011101011001,
    0b0000010001110101100110101001, 0b0000010001101101010101010110],
   [0b0111111111111000000000000000, 0b1011111100000111110000000000,
    0b1101111010000100001111000000, 0b1110110101000010001100110000,
    0b1111010001100101001000001100, 0b1111100010100011000100000011,
    0b1110000110011100110011000000, 0b1101001001011010110000110000,
    0b1010011000111000000111000011, 0b1001100100111000001000111100,
    0b1000110011011001000000001111, 0b1000001111101000100010101010,
    0b1000001111110000010001010101, 0b0110101000000001111011001100,
    0b0101010100000001110100110011, 0b0100110000100110110000001111,
    0b0100001100010111010010101010, 0b0100001100001111100001010101,
    0b0011100001000100000111111100, 0b0011010010000010001011110011,
    0b0010001010010100101101101010, 0b0010001010001100011110010101,
    0b0001000101010010101110011010, 0b0001000101001010011101100101,
    0b0000100001110101101010100110, 0b0000100001101101011001011001,
    0b0000010010110011100110101001, 0b0000010010101011010101010110],
   [0b0111111111111000000000000000, 0b1011111100000111110000000000,
    0b1101111010000100001111000000, 0b1110110101000010001100110000,
    0b1111010010100011001000001100, 0b1111100001100101000100000011,
    0b1110000110011100110011000000, 0b1101001001011010110000110000,
    0b1010101000111000001011001100, 0b1001010100111000000100110011,
    0b1000110011011001000000001111, 0b1000001111101000100010101010,
    0b1000001111110000010001010101, 0b0110011000000001110111000011,
    0b0101100100000001111000111100, 0b0100110000100110110000001111,
    0b0100001100010111010010101010, 0b0100001100001111100001010101,
    0b0011100010000010000111111100, 0b0011010001000100001011110011,
    0b0010001010010100101101101010, 0b0010001010001100011110010101,
    0b0001000101010010101110011010, 0b0001000101001010011101100101,
    0b0000100010110011101010100110, 0b0000100010101011011001011001,
    0b0000010001110101100110101001, 0b0000010001101101010101010110],
   [0b0111111111111000000000000000, 0b1011111100000111110000000000,
    0b1101111010000100001111000000, 0b1110110001100110001000110000,
    0b1111010001010101000100001100, 0b1111101001000000100010101010,
    0b1110010110001000110011000010, 0b1100001010111011110000000001,
    0b1010001100111000001111000001, 0b1001110000111000000000111110,
    0b1001000111011010001000110001, 0b1000100111101001000100001101,
    0b1000001111110000010001010110, 0b0111100000000011011101010100,
    0b0101000100100101111000110001, 0b0100100100010110110100001101,
    0b0100011100000011010010101011, 0b0100001100001111100001010110,
    0b0011000010100110000111110001, 0b0010100010010101001011001101,
    0b0010011010000000101101101011, 0b0010001010001100011110010110,
    0b0001010001100010101010011011, 0b0001000001101110011001100110,
    0b0000110001010001100110100111, 0b0000100001011101010101011010,
    0b0000011001001000110011111100, 0b0000000110110011101110101000],
   [0b0111111111111000000000000000, 0b1011111100000111110000000000,
    0b1101111010000100001111000000, 0b1110110011000011001000110000,
    0b1111010010100010100100001100, 0b1111101000010010000010101010,
    0b1110010100011100010011000010, 0b1100001001111101110000000001,
    0b1011100001101000001101010100, 0b1001000110111001001000110001,
    0b1000100111011000100100001101, 0b1000011101101000000010101011,
    0b1000001111110000010001010110, 0b0110001100000001111111000001,
    0b0101110000000001110000111110, 0b0101000101000110111000110001,
    0b0100100100100111010100001101, 0b0100001100001111100001010110,
    0b0011000011000101000111110001, 0b0010100010100100101011001101,
    0b0010011000010100001101101011, 0b0010001010001100011110010110,
    0b0001010001010011001010011011, 0b0001000011001011011001100110,
    0b0000110000110010100110100111, 0b0000100010101010110101011010,
    0b0000011000011010010011111100, 0b0000000101110101101110101000],
   [0b0111111111111000000000000000, 0b1011111100000111110000000000,
    0b1101111010000100001111000000, 0b1110110101000010001100110000,
    0b1111010100100001001010001100, 0b1111101000010000101000101010,
    0b1110010010011100110001000010, 0b1101100001101011010000010100,
    0b1010001001111100000111000001, 0b1001000110111010000100110001,
    0b1000100111011001000010001101, 0b1000011011101000100000101011,
    0b1000001111110000010001010110, 0b0110001010000011110111000001,
    0b0101000101000101110100110001, 0b0100100100100110110010001101,
    0b0100011000010111010000101011, 0b0100001100001111100001010110,
    0b0011110000000000000111111110, 0b0011000011000110001011110001,
    0b0010100010100101001101001101, 0b0010001010001100011110010110,
    0b0001010001010010101100011011, 0b0001000101001010011101100110,
    0b0000110000110001101010100111, 0b0000100100101001011011011010,
    0b0000011000011000111001111100, 0b0000000011110111100110101000],
   [0b0111111111111000000000000000, 0b1011111100000111110000000000,
    0b1101111010000100001111000000, 0b1110110001100110001000110000,
    0b1111011001000001000100101100, 0b1111100001010100100010001010,
    0b1110100110001001010101000100, 0b1100001010111011110000000001,
    0b1010001100111000001111000001, 0b1001110000111000000000111110,
    0b1001000111011010001000110001, 0b1000010111101000100010001011,
    0b1000001111110000010001010110, 0b0111010000000010111011010010,
    0b0101000100100101111000110001, 0b0100101100000010110100101101,
    0b0100010100010111010010001011, 0b0100001100001111100001010110,
    0b0011000010100110000111110001, 0b0010101010000001001011101101,
    0b0010010010010100101101001011, 0b0010001010001100011110010110,
    0b0001100001100011001100011101, 0b0001000001101110011001100110,
    0b0000110001010001100110100111, 0b0000101001001001010101111010,
    0b0000010001011100110011011100, 0b0000000110110011101110101000],
   [0b0111111111111000000000000000, 0b1011111100000111110000000000,
    0b1101111010000100001111000000, 0b1110110011000011001000110000,
    0b1111011000100010000100101100, 0b1111100010010010100010001010,
    0b1110100100101100010101000100, 0b1100001001111101110000000001,
    0b1011010001011000001011010010, 0b1001000110111001001000110001,
    0b1000101101011000000100101101, 0b1000010111101000100010001011,
    0b1000001111110000010001010110, 0b0110001100000001111111000001,
    0b0101110000000001110000111110, 0b0101000101000110111000110001,
    0b0100010100010111010010001011, 0b0100001100001111100001010110,
    0b0011000011000101000111110001, 0b0010101000100100001011101101,
    0b0010010010010100101101001011, 0b0010001010001100011110010110,
    0b0001100001100011001100011101, 0b0001000011001011011001100110,
    0b0000110000110010100110100111, 0b0000101000101010010101111010,
    0b0000010010011010110011011100, 0b0000000101110101101110101000],
   [0b0111111111111000000000000000, 0b1011111100000111110000000000,
    0b1101111010000100001111000000, 0b1110110101000010001100110000,
    0b1111011000100001001000101100, 0b1111100100010000101010001010,
    0b1110100010101101010001000100, 0b1101010001011010110000010010,
    0b1010001001111100000111000001, 0b1001000110111010000100110001,
    0b1000101011011001000000101101, 0b1000010111101000100010001011,
    0b1000001111110000010001010110, 0b0110001010000011110111000001,
    0b0101000101000101110100110001, 0b0100101000100110110000101101,
    0b0100010100010111010010001011, 0b0100001100001111100001010110,
    0b0011110000000000000111111110, 0b0011000011000110001011110001,
    0b0010010010010100101101001011, 0b0010001010001100011110010110,
    0b0001100001100011001100011101, 0b0001000101001010011101100110,
    0b0000110000110001101010100111, 0b0000101000101001011001111010,
    0b0000010100011000111011011100, 0b0000000011110111100110101000],
   [0b0111111111111000000000000000, 0b1011111100000111110000000000,
    0b1101111010000100001111000000, 0b1110111001000010001000111000,
    0b1111010001100101000100100100, 0b1111100001010100100010010010,
    0b1111000110001010011001001000, 0b1100001010111011110000000001,
    0b1010001100111000001111000001, 0b1001110000111000000000111110,
    0b1000100111011001000100100101, 0b1000010111101000100010010011,
    0b1000001111110000010001001110, 0b0110110000000001110111000110,
    0b0101001100000001111000111001, 0b0100100100100110110100100101,
    0b0100010100010111010010010011, 0b0100001100001111100001001110,
    0b0011001010000010000111111001, 0b0010100010100101001011100101,
    0b0010010010010100101101010011, 0b0010001010001100011110001110,
    0b0001100001100011001100011101, 0b0001010001010010101010101011,
    0b0001001001001010011001110110, 0b0000100001101101010101101010,
    0b0000010001011100110011011100, 0b0000000110110011101110110000],
   [0b0111111111111000000000000000, 0b1011111100000111110000000000,
    0b1101111010000100001111000000, 0b1110111001000010001000111000,
    0b1111010010100011000100100100, 0b1111100010010010100010010010,
    0b1111000101001100011001001000, 0b1100001001111101110000000001,
    0b1010110000111000000111000110, 0b1001001100111000001000111001,
    0b1000100111011001000100100101, 0b1000010111101000100010010011,
    0b1000001111110000010001001110, 0b0110001100000001111111000001,
    0b0101110000000001110000111110, 0b0100100100100110110100100101,
    0b0100010100010111010010010011, 0b0100001100001111100001001110,
    0b0011001001000100000111111001, 0b0010100010100101001011100101,
    0b0010010010010100101101010011, 0b0010001010001100011110001110,
    0b0001100001100011001100011101, 0b0001010001010010101010101011,
    0b0001001001001010011001110110, 0b0000100010101011010101101010,
    0b0000010010011010110011011100, 0b0000000101110101101110110000],
   [0b0111111111111000000000000000, 0b1011111100000111110000000000,
    0b1101111010000100001111000000, 0b1110111001000010001000111000,
    0b1111010100100001001100100100, 0b1111100100010000101010010010,
    0b1111000011001110010001001000, 0b1100110000111001110000000110,
    0b1010001001111100000111000001, 0b1001001010111010000000111001,
    0b1000100111011001000100100101, 0b1000010111101000100010010011,
    0b1000001111110000010001001110, 0b0110001010000011110111000001,
    0b0101001001000101110000111001, 0b0100100100100110110100100101,
    0b0100010100010111010010010011, 0b0100001100001111100001001110,
    0b0011110000000000000111111110, 0b0010100010100101001011100101,
    0b0010010010010100101101010011, 0b0010001010001100011110001110,
    0b0001100001100011001100011101, 0b0001010001010010101010101011,
    0b0001001001001010011001110110, 0b0000100100101001011101101010,
    0b0000010100011000111011011100, 0b0000000011110111100110110000],
   [0b0111111111111000000000000000, 0b1011111100000111110000000000,
    0b1101111010000100001111000000, 0b1110111001000010001000111000,
    0b1111011000100001000100100110, 0b1111101000010000100010010101,
    0b1111110000001000010001001011, 0b1100000011111111110000000000,
    0b1010000101111100001111000000, 0b1001000110111010001000111000,
    0b1000100111011001000100100110, 0b1000010111101000100010010101,
    0b1000001111110000010001001011, 0b0110000110000011111111000000,
    0b0101000101000101111000111000, 0b0100100100100110110100100110,
    0b0100010100010111010010010101, 0b0100001100001111100001001011,
    0b0011000011000110000111111000, 0b0010100010100101001011100110,
    0b0010010010010100101101010101, 0b0010001010001100011110001011,
    0b0001100001100011001100011110, 0b0001010001010010101010101101,
    0b0001001001001010011001110011, 0b0000110000110001100110110011,
    0b0000101000101001010101101101, 0b0000011000011000110011011110]]

/-- `solutions` of /repo/srg/database/problem_28_12_6_4.py. -/
def p_28_12_6_4 : List (List Nat) :=
  p_28_12_6_4_0 ++ p_28_12_6_4_1 ++ p_28_12_6_4_2 ++ p_28_12_6_4_3 ++
    p_28_12_6_4_4 ++ p_28_12_6_4_5 ++ p_28_12_6_4_6

end Database

end TDS
