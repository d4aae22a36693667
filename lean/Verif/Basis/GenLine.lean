import Verif.Basis.Expr
/-!
Text of the basis functions of lines.
-/
namespace Edge.Basis

/-- Basis of lines (src/dg/generated/basis_line.inc:24-54): the right-hand sides for `b` = 0, ..., 9. Literals `n.0L` are written `n`. -/
def lineVal : List Ex := exs% {
  0 => 1;
  1 => 2*xi - 1;
  2 => (3/2)*std::pow(2*xi - 1, 2) - 1/2;
  3 => -3*xi + (5/2)*std::pow(2*xi - 1, 3) + 3/2;
  4 => (35/8)*std::pow(2*xi - 1, 4) - 15/4*std::pow(2*xi - 1, 2) + 3/8;
  5 => (15/4)*xi + (63/8)*std::pow(2*xi - 1, 5) - 35/4*std::pow(2*xi - 1, 3) - 15/8;
  6 => (231/16)*std::pow(2*xi - 1, 6) - 315/16*std::pow(2*xi - 1, 4) + (105/16)*std::pow(2*xi - 1, 2) - 5/16;
  7 => -35/8*xi + (429/16)*std::pow(2*xi - 1, 7) - 693/16*std::pow(2*xi - 1, 5) + (315/16)*std::pow(2*xi - 1, 3) + 35/16;
  8 => (6435/128)*std::pow(2*xi - 1, 8) - 3003/32*std::pow(2*xi - 1, 6) + (3465/64)*std::pow(2*xi - 1, 4) - 315/32*std::pow(2*xi - 1, 2) + 35/128;
  9 => (315/64)*xi + (12155/128)*std::pow(2*xi - 1, 9) - 6435/32*std::pow(2*xi - 1, 7) + (9009/64)*std::pow(2*xi - 1, 5) - 1155/32*std::pow(2*xi - 1, 3) - 315/128;
}

/-- Derivatives of the basis of lines (src/dg/generated/basis_line_der.inc:24-54): the right-hand sides for `b` = 0, ..., 9. Literals `n.0L` are written `n`. -/
def lineDer : List Ex := exs% {
  0 => 0;
  1 => 2;
  2 => 12*xi - 6;
  3 => 15*std::pow(2*xi - 1, 2) - 3;
  4 => -30*xi + 35*std::pow(2*xi - 1, 3) + 15;
  5 => (315/4)*std::pow(2*xi - 1, 4) - 105/2*std::pow(2*xi - 1, 2) + 15/4;
  6 => (105/2)*xi + (693/4)*std::pow(2*xi - 1, 5) - 315/2*std::pow(2*xi - 1, 3) - 105/4;
  7 => (3003/8)*std::pow(2*xi - 1, 6) - 3465/8*std::pow(2*xi - 1, 4) + (945/8)*std::pow(2*xi - 1, 2) - 35/8;
  8 => -315/4*xi + (6435/8)*std::pow(2*xi - 1, 7) - 9009/8*std::pow(2*xi - 1, 5) + (3465/8)*std::pow(2*xi - 1, 3) + 315/8;
  9 => (109395/64)*std::pow(2*xi - 1, 8) - 45045/16*std::pow(2*xi - 1, 6) + (45045/32)*std::pow(2*xi - 1, 4) - 3465/16*std::pow(2*xi - 1, 2) + 315/64;
}

end Edge.Basis
