import Verif.Basis.Expr
/-!
Text of the derivatives of the basis functions of tetrahedra.
-/
namespace Edge.Basis

/-- Derivatives with respect to the coordinate 2 of the basis of tetrahedra (src/dg/generated/basis_tet_der_xi2.inc:24-882): the right-hand sides for `b` = 0, ..., 285. Literals `n.0L` are written `n`. -/
def tetDer2 : List Ex := exs% {
  0 => 0;
  1 => 0;
  2 => 3;
  3 => 1;
  4 => 0;
  5 => 18*xi_3 - 3;
  6 => 20*xi_2 + 8*xi_3 - 8;
  7 => 6*xi_3 - 1;
  8 => 10*xi_1 + 10*xi_2 + 6*xi_3 - 6;
  9 => 6*xi_1 + 2*xi_2 + 2*xi_3 - 2;
  10 => 0;
  11 => 42*xi_3 + 21*std::pow(2*xi_3 - 1, 2) - 18;
  12 => -(8*xi_3 - 1)*(4*std::pow(xi_3 - 1, 2) - 5*(xi_3 - 1)*(8*xi_2 + 4*xi_3 - 4))/(2*xi_3 - 2);
  13 => 105*std::pow(xi_2, 2) + 90*xi_2*xi_3 - 90*xi_2 + 15*std::pow(xi_3, 2) - 30*xi_3 + 15;
  14 => 14*xi_3 + 7*std::pow(2*xi_3 - 1, 2) - 6;
  15 => (8*xi_3 - 1)*(5*xi_2 + xi_3 - 1) + 5*(8*xi_3 - 1)*(2*xi_1 + xi_2 + xi_3 - 1);
  16 => -(36*std::pow(xi_3 - 1, 2) - 21*(xi_3 - 1)*(8*xi_2 + 4*xi_3 - 4))*(2*xi_1 + xi_2 + xi_3 - 1)/(4*xi_3 - 4) - (36*xi_2*std::pow(xi_3 - 1, 2) + 17*std::pow(xi_3 - 1, 3) - 21*(xi_3 - 1)*std::pow(2*xi_2 + xi_3 - 1, 2))/(4*xi_3 - 4);
  17 => (1/2)*(8*xi_3 - 1)*(12*xi_1 + 4*xi_2 + 4*xi_3 - 4);
  18 => -7/2*std::pow(xi_2 + xi_3 - 1, 2) + (1/2)*(7*xi_2 + xi_3 - 1)*(12*xi_1 + 4*xi_2 + 4*xi_3 - 4) + (21/2)*std::pow(2*xi_1 + xi_2 + xi_3 - 1, 2);
  19 => -(18*xi_1*std::pow(xi_2 + xi_3 - 1, 2) + 12*std::pow(xi_2 + xi_3 - 1, 3) - 15*(xi_2 + xi_3 - 1)*std::pow(2*xi_1 + xi_2 + xi_3 - 1, 2) - 5*std::pow(2*xi_1 + xi_2 + xi_3 - 1, 3))/(2*xi_2 + 2*xi_3 - 2) + 2*(6*xi_1*std::pow(xi_2 + xi_3 - 1, 3) + 3*std::pow(xi_2 + xi_3 - 1, 4) - 5*(xi_2 + xi_3 - 1)*std::pow(2*xi_1 + xi_2 + xi_3 - 1, 3))/std::pow(2*xi_2 + 2*xi_3 - 2, 2);
  20 => 0;
  21 => 18*xi_3 + 45*std::pow(2*xi_3 - 1, 3) + 54*std::pow(2*xi_3 - 1, 2) - 12;
  22 => -(4*std::pow(xi_3 - 1, 2) - 5*(xi_3 - 1)*(8*xi_2 + 4*xi_3 - 4))*(108*xi_3 + 45*std::pow(2*xi_3 - 1, 2) - 41)/(8*xi_3 - 8);
  23 => -(10*xi_3 - 1)*(30*std::pow(xi_3 - 1, 3) + 15*std::pow(xi_3 - 1, 2)*(8*xi_2 + 4*xi_3 - 4) - 210*(xi_3 - 1)*std::pow(2*xi_2 + xi_3 - 1, 2))/(8*xi_3 - 8);
  24 => 3*std::pow(xi_3 - 1, 3) - 21/4*std::pow(xi_3 - 1, 2)*(8*xi_2 + 4*xi_3 - 4) - 21*(xi_3 - 1)*std::pow(2*xi_2 + xi_3 - 1, 2) + 63*std::pow(2*xi_2 + xi_3 - 1, 3);
  25 => 6*xi_3 + 15*std::pow(2*xi_3 - 1, 3) + 18*std::pow(2*xi_3 - 1, 2) - 4;
  26 => (1/4)*(5*xi_2 + xi_3 - 1)*(108*xi_3 + 45*std::pow(2*xi_3 - 1, 2) - 41) + (5/4)*(108*xi_3 + 45*std::pow(2*xi_3 - 1, 2) - 41)*(2*xi_1 + xi_2 + xi_3 - 1);
  27 => -(10*xi_3 - 1)*(36*std::pow(xi_3 - 1, 2) - 21*(xi_3 - 1)*(8*xi_2 + 4*xi_3 - 4))*(2*xi_1 + xi_2 + xi_3 - 1)/(4*xi_3 - 4) - (10*xi_3 - 1)*(36*xi_2*std::pow(xi_3 - 1, 2) + 17*std::pow(xi_3 - 1, 3) - 21*(xi_3 - 1)*std::pow(2*xi_2 + xi_3 - 1, 2))/(4*xi_3 - 4);
  28 => std::pow(xi_3 - 1, 3) - 21/2*(xi_3 - 1)*std::pow(2*xi_2 + xi_3 - 1, 2) + (1/2)*(-21*(xi_3 - 1)*(8*xi_2 + 4*xi_3 - 4) + 126*std::pow(2*xi_2 + xi_3 - 1, 2))*(2*xi_1 + xi_2 + xi_3 - 1) + (21/2)*std::pow(2*xi_2 + xi_3 - 1, 3);
  29 => (1/8)*(108*xi_3 + 45*std::pow(2*xi_3 - 1, 2) - 41)*(12*xi_1 + 4*xi_2 + 4*xi_3 - 4);
  30 => (7/2)*(10*xi_3 - 1)*(-std::pow(xi_2 + xi_3 - 1, 2) + 3*std::pow(2*xi_1 + xi_2 + xi_3 - 1, 2)) + (1/2)*(10*xi_3 - 1)*(7*xi_2 + xi_3 - 1)*(12*xi_1 + 4*xi_2 + 4*xi_3 - 4);
  31 => (20*std::pow(xi_3 - 1, 2) - 9*(xi_3 - 1)*(8*xi_2 + 4*xi_3 - 4))*(std::pow(xi_2 + xi_3 - 1, 2) - 3*std::pow(2*xi_1 + xi_2 + xi_3 - 1, 2))/(2*xi_3 - 2) + (20*xi_2*std::pow(xi_3 - 1, 2) + 8*std::pow(xi_3 - 1, 3) - 9*(xi_3 - 1)*std::pow(2*xi_2 + xi_3 - 1, 2))*(-12*xi_1 - 4*xi_2 - 4*xi_3 + 4)/(2*xi_3 - 2);
  32 => -(10*xi_3 - 1)*(18*xi_1*std::pow(xi_2 + xi_3 - 1, 2) + 12*std::pow(xi_2 + xi_3 - 1, 3) - 15*(xi_2 + xi_3 - 1)*std::pow(2*xi_1 + xi_2 + xi_3 - 1, 2) - 5*std::pow(2*xi_1 + xi_2 + xi_3 - 1, 3))/(2*xi_2 + 2*xi_3 - 2) + 2*(10*xi_3 - 1)*(6*xi_1*std::pow(xi_2 + xi_3 - 1, 3) + 3*std::pow(xi_2 + xi_3 - 1, 4) - 5*(xi_2 + xi_3 - 1)*std::pow(2*xi_1 + xi_2 + xi_3 - 1, 3))/std::pow(2*xi_2 + 2*xi_3 - 2, 2);
  33 => (1/2)*(9*xi_2 + xi_3 - 1)*(18*xi_1*std::pow(xi_2 + xi_3 - 1, 2) + 15*(-xi_2 - xi_3 + 1)*std::pow(2*xi_1 + xi_2 + xi_3 - 1, 2) + 12*std::pow(xi_2 + xi_3 - 1, 3) - 5*std::pow(2*xi_1 + xi_2 + xi_3 - 1, 3))/(-xi_2 - xi_3 + 1) + (9/2)*(6*xi_1*std::pow(xi_2 + xi_3 - 1, 3) + 5*(-xi_2 - xi_3 + 1)*std::pow(2*xi_1 + xi_2 + xi_3 - 1, 3) + 3*std::pow(xi_2 + xi_3 - 1, 4))/(-xi_2 - xi_3 + 1) + (1/2)*(9*xi_2 + xi_3 - 1)*(6*xi_1*std::pow(xi_2 + xi_3 - 1, 3) + 5*(-xi_2 - xi_3 + 1)*std::pow(2*xi_1 + xi_2 + xi_3 - 1, 3) + 3*std::pow(xi_2 + xi_3 - 1, 4))/std::pow(-xi_2 - xi_3 + 1, 2);
  34 => (3/2)*std::pow(xi_2 + xi_3 - 1, 3) - 15/4*std::pow(xi_2 + xi_3 - 1, 2)*(4*xi_1 + 2*xi_2 + 2*xi_3 - 2) - 15/4*(2*xi_2 + 2*xi_3 - 2)*std::pow(2*xi_1 + xi_2 + xi_3 - 1, 2) + (35/2)*std::pow(2*xi_1 + xi_2 + xi_3 - 1, 3);
  35 => 0;
  36 => -81/2*xi_3 + (1485/16)*std::pow(2*xi_3 - 1, 4) + (495/4)*std::pow(2*xi_3 - 1, 3) + (135/8)*std::pow(2*xi_3 - 1, 2) + 273/16;
  37 => -(4*std::pow(xi_3 - 1, 2) - 5*(xi_3 - 1)*(8*xi_2 + 4*xi_3 - 4))*(120*xi_3 + 110*std::pow(2*xi_3 - 1, 3) + 165*std::pow(2*xi_3 - 1, 2) - 59)/(8*xi_3 - 8);
  38 => -(88*xi_3 + 33*std::pow(2*xi_3 - 1, 2) - 31)*(30*std::pow(xi_3 - 1, 3) + 15*std::pow(xi_3 - 1, 2)*(8*xi_2 + 4*xi_3 - 4) - 210*(xi_3 - 1)*std::pow(2*xi_2 + xi_3 - 1, 2))/(16*xi_3 - 16);
  39 => (1/8)*(12*xi_3 - 1)*(24*std::pow(xi_3 - 1, 3) - 42*std::pow(xi_3 - 1, 2)*(8*xi_2 + 4*xi_3 - 4) - 168*(xi_3 - 1)*std::pow(2*xi_2 + xi_3 - 1, 2) + 504*std::pow(2*xi_2 + xi_3 - 1, 3));
  40 => (1/16)*(840*std::pow(-xi_3 + 1, 2)*std::pow(-2*xi_2 - xi_3 + 1, 3) - 2310*(-xi_3 + 1)*std::pow(-2*xi_2 - xi_3 + 1, 4) + 70*std::pow(xi_3 - 1, 5) + 70*std::pow(xi_3 - 1, 4)*(8*xi_2 + 4*xi_3 - 4) - 1260*std::pow(xi_3 - 1, 3)*std::pow(-2*xi_2 - xi_3 + 1, 2))/(xi_3 - 1);
  41 => -27/2*xi_3 + (495/16)*std::pow(2*xi_3 - 1, 4) + (165/4)*std::pow(2*xi_3 - 1, 3) + (45/8)*std::pow(2*xi_3 - 1, 2) + 91/16;
  42 => (1/4)*(5*xi_2 + xi_3 - 1)*(120*xi_3 + 110*std::pow(2*xi_3 - 1, 3) + 165*std::pow(2*xi_3 - 1, 2) - 59) + (5/4)*(2*xi_1 + xi_2 + xi_3 - 1)*(120*xi_3 + 110*std::pow(2*xi_3 - 1, 3) + 165*std::pow(2*xi_3 - 1, 2) - 59);
  43 => -(36*std::pow(xi_3 - 1, 2) - 21*(xi_3 - 1)*(8*xi_2 + 4*xi_3 - 4))*(88*xi_3 + 33*std::pow(2*xi_3 - 1, 2) - 31)*(2*xi_1 + xi_2 + xi_3 - 1)/(8*xi_3 - 8) - (88*xi_3 + 33*std::pow(2*xi_3 - 1, 2) - 31)*(36*xi_2*std::pow(xi_3 - 1, 2) + 17*std::pow(xi_3 - 1, 3) - 21*(xi_3 - 1)*std::pow(2*xi_2 + xi_3 - 1, 2))/(8*xi_3 - 8);
  44 => (1/2)*(12*xi_3 - 1)*(-21*(xi_3 - 1)*(8*xi_2 + 4*xi_3 - 4) + 126*std::pow(2*xi_2 + xi_3 - 1, 2))*(2*xi_1 + xi_2 + xi_3 - 1) + (1/2)*(12*xi_3 - 1)*(2*std::pow(xi_3 - 1, 3) - 21*(xi_3 - 1)*std::pow(2*xi_2 + xi_3 - 1, 2) + 21*std::pow(2*xi_2 + xi_3 - 1, 3));
  45 => 11*xi_2*std::pow(xi_3 - 1, 3) + (41/8)*std::pow(xi_3 - 1, 4) - 9/4*std::pow(xi_3 - 1, 2)*std::pow(2*xi_2 + xi_3 - 1, 2) - 45/2*(xi_3 - 1)*std::pow(2*xi_2 + xi_3 - 1, 3) + (165/8)*std::pow(2*xi_2 + xi_3 - 1, 4) + (1/8)*(2*xi_1 + xi_2 + xi_3 - 1)*(88*std::pow(xi_3 - 1, 3) - 18*std::pow(xi_3 - 1, 2)*(8*xi_2 + 4*xi_3 - 4) - 1080*(xi_3 - 1)*std::pow(2*xi_2 + xi_3 - 1, 2) + 1320*std::pow(2*xi_2 + xi_3 - 1, 3));
  46 => (1/8)*(12*xi_1 + 4*xi_2 + 4*xi_3 - 4)*(120*xi_3 + 110*std::pow(2*xi_3 - 1, 3) + 165*std::pow(2*xi_3 - 1, 2) - 59);
  47 => (7/4)*(-std::pow(xi_2 + xi_3 - 1, 2) + 3*std::pow(2*xi_1 + xi_2 + xi_3 - 1, 2))*(88*xi_3 + 33*std::pow(2*xi_3 - 1, 2) - 31) + (1/4)*(7*xi_2 + xi_3 - 1)*(88*xi_3 + 33*std::pow(2*xi_3 - 1, 2) - 31)*(12*xi_1 + 4*xi_2 + 4*xi_3 - 4);
  48 => (12*xi_3 - 1)*(20*std::pow(xi_3 - 1, 2) - 9*(xi_3 - 1)*(8*xi_2 + 4*xi_3 - 4))*(std::pow(xi_2 + xi_3 - 1, 2) - 3*std::pow(2*xi_1 + xi_2 + xi_3 - 1, 2))/(2*xi_3 - 2) + (12*xi_3 - 1)*(20*xi_2*std::pow(xi_3 - 1, 2) + 8*std::pow(xi_3 - 1, 3) - 9*(xi_3 - 1)*std::pow(2*xi_2 + xi_3 - 1, 2))*(-12*xi_1 - 4*xi_2 - 4*xi_3 + 4)/(2*xi_3 - 2);
  49 => (1/16)*(-std::pow(xi_2 + xi_3 - 1, 2) + 3*std::pow(2*xi_1 + xi_2 + xi_3 - 1, 2))*(-225*std::pow(-xi_3 + 1, 2)*(8*xi_2 + 4*xi_3 - 4) - 990*(-xi_3 + 1)*std::pow(-2*xi_2 - xi_3 + 1, 2) + 126*std::pow(xi_3 - 1, 3))/(xi_3 - 1) + (1/16)*(12*xi_1 + 4*xi_2 + 4*xi_3 - 4)*(126*xi_2*std::pow(xi_3 - 1, 3) - 225*std::pow(-xi_3 + 1, 2)*std::pow(-2*xi_2 - xi_3 + 1, 2) + 165*(-xi_3 + 1)*std::pow(-2*xi_2 - xi_3 + 1, 3) + 68*std::pow(xi_3 - 1, 4))/(xi_3 - 1);
  50 => -(88*xi_3 + 33*std::pow(2*xi_3 - 1, 2) - 31)*(18*xi_1*std::pow(xi_2 + xi_3 - 1, 2) + 12*std::pow(xi_2 + xi_3 - 1, 3) - 15*(xi_2 + xi_3 - 1)*std::pow(2*xi_1 + xi_2 + xi_3 - 1, 2) - 5*std::pow(2*xi_1 + xi_2 + xi_3 - 1, 3))/(4*xi_2 + 4*xi_3 - 4) + 4*(88*xi_3 + 33*std::pow(2*xi_3 - 1, 2) - 31)*(6*xi_1*std::pow(xi_2 + xi_3 - 1, 3) + 3*std::pow(xi_2 + xi_3 - 1, 4) - 5*(xi_2 + xi_3 - 1)*std::pow(2*xi_1 + xi_2 + xi_3 - 1, 3))/std::pow(4*xi_2 + 4*xi_3 - 4, 2);
  51 => (1/2)*(12*xi_3 - 1)*(9*xi_2 + xi_3 - 1)*(18*xi_1*std::pow(xi_2 + xi_3 - 1, 2) + 15*(-xi_2 - xi_3 + 1)*std::pow(2*xi_1 + xi_2 + xi_3 - 1, 2) + 12*std::pow(xi_2 + xi_3 - 1, 3) - 5*std::pow(2*xi_1 + xi_2 + xi_3 - 1, 3))/(-xi_2 - xi_3 + 1) + (9/2)*(12*xi_3 - 1)*(6*xi_1*std::pow(xi_2 + xi_3 - 1, 3) + 5*(-xi_2 - xi_3 + 1)*std::pow(2*xi_1 + xi_2 + xi_3 - 1, 3) + 3*std::pow(xi_2 + xi_3 - 1, 4))/(-xi_2 - xi_3 + 1) + (1/2)*(12*xi_3 - 1)*(9*xi_2 + xi_3 - 1)*(6*xi_1*std::pow(xi_2 + xi_3 - 1, 3) + 5*(-xi_2 - xi_3 + 1)*std::pow(2*xi_1 + xi_2 + xi_3 - 1, 3) + 3*std::pow(xi_2 + xi_3 - 1, 4))/std::pow(-xi_2 - xi_3 + 1, 2);
  52 => (1/8)*(55*(-xi_3 + 1)*(8*xi_2 + 4*xi_3 - 4) + 140*std::pow(xi_3 - 1, 2))*(6*xi_1*std::pow(xi_2 + xi_3 - 1, 3) + 5*(-xi_2 - xi_3 + 1)*std::pow(2*xi_1 + xi_2 + xi_3 - 1, 3) + 3*std::pow(xi_2 + xi_3 - 1, 4))/((xi_3 - 1)*(xi_2 + xi_3 - 1)) + (1/8)*(140*xi_2*std::pow(xi_3 - 1, 2) + 55*(-xi_3 + 1)*std::pow(-2*xi_2 - xi_3 + 1, 2) + 51*std::pow(xi_3 - 1, 3))*(18*xi_1*std::pow(xi_2 + xi_3 - 1, 2) + 15*(-xi_2 - xi_3 + 1)*std::pow(2*xi_1 + xi_2 + xi_3 - 1, 2) + 12*std::pow(xi_2 + xi_3 - 1, 3) - 5*std::pow(2*xi_1 + xi_2 + xi_3 - 1, 3))/((xi_3 - 1)*(xi_2 + xi_3 - 1)) - 1/8*(6*xi_1*std::pow(xi_2 + xi_3 - 1, 3) + 5*(-xi_2 - xi_3 + 1)*std::pow(2*xi_1 + xi_2 + xi_3 - 1, 3) + 3*std::pow(xi_2 + xi_3 - 1, 4))*(140*xi_2*std::pow(xi_3 - 1, 2) + 55*(-xi_3 + 1)*std::pow(-2*xi_2 - xi_3 + 1, 2) + 51*std::pow(xi_3 - 1, 3))/((xi_3 - 1)*std::pow(xi_2 + xi_3 - 1, 2));
  53 => (1/8)*(12*xi_3 - 1)*(12*std::pow(xi_2 + xi_3 - 1, 3) - 30*std::pow(xi_2 + xi_3 - 1, 2)*(4*xi_1 + 2*xi_2 + 2*xi_3 - 2) - 30*(2*xi_2 + 2*xi_3 - 2)*std::pow(2*xi_1 + xi_2 + xi_3 - 1, 2) + 140*std::pow(2*xi_1 + xi_2 + xi_3 - 1, 3));
  54 => (33/8)*std::pow(xi_2 + xi_3 - 1, 4) - 165/4*std::pow(xi_2 + xi_3 - 1, 2)*std::pow(2*xi_1 + xi_2 + xi_3 - 1, 2) + (1/8)*(11*xi_2 + xi_3 - 1)*(12*std::pow(xi_2 + xi_3 - 1, 3) - 30*std::pow(xi_2 + xi_3 - 1, 2)*(4*xi_1 + 2*xi_2 + 2*xi_3 - 2) - 30*(2*xi_2 + 2*xi_3 - 2)*std::pow(2*xi_1 + xi_2 + xi_3 - 1, 2) + 140*std::pow(2*xi_1 + xi_2 + xi_3 - 1, 3)) + (385/8)*std::pow(2*xi_1 + xi_2 + xi_3 - 1, 4);
  55 => (1/8)*(150*xi_1*std::pow(xi_2 + xi_3 - 1, 4) - 315*(-xi_2 - xi_3 + 1)*std::pow(-2*xi_1 - xi_2 - xi_3 + 1, 4) + 90*std::pow(xi_2 + xi_3 - 1, 5) - 210*std::pow(xi_2 + xi_3 - 1, 3)*std::pow(-2*xi_1 - xi_2 - xi_3 + 1, 2) + 210*std::pow(xi_2 + xi_3 - 1, 2)*std::pow(-2*xi_1 - xi_2 - xi_3 + 1, 3) - 63*std::pow(-2*xi_1 - xi_2 - xi_3 + 1, 5))/(xi_2 + xi_3 - 1) - 1/8*(30*xi_1*std::pow(xi_2 + xi_3 - 1, 5) + 63*(-xi_2 - xi_3 + 1)*std::pow(-2*xi_1 - xi_2 - xi_3 + 1, 5) + 15*std::pow(xi_2 + xi_3 - 1, 6) + 70*std::pow(xi_2 + xi_3 - 1, 3)*std::pow(-2*xi_1 - xi_2 - xi_3 + 1, 3))/std::pow(xi_2 + xi_3 - 1, 2);
  56 => 0;
  57 => -285/8*xi_3 + (3003/16)*std::pow(2*xi_3 - 1, 5) + (2145/8)*std::pow(2*xi_3 - 1, 4) + (165/8)*std::pow(2*xi_3 - 1, 3) - 165/2*std::pow(2*xi_3 - 1, 2) + 315/16;
  58 => -(4*std::pow(xi_3 - 1, 2) - 5*(xi_3 - 1)*(8*xi_2 + 4*xi_3 - 4))*(-88*xi_3 + 1001*std::pow(2*xi_3 - 1, 4) + 1716*std::pow(2*xi_3 - 1, 3) + 726*std::pow(2*xi_3 - 1, 2) + 5)/(32*xi_3 - 32);
  59 => -(30*std::pow(xi_3 - 1, 3) + 15*std::pow(xi_3 - 1, 2)*(8*xi_2 + 4*xi_3 - 4) - 210*(xi_3 - 1)*std::pow(2*xi_2 + xi_3 - 1, 2))*(150*xi_3 + 91*std::pow(2*xi_3 - 1, 3) + 156*std::pow(2*xi_3 - 1, 2) - 67)/(16*xi_3 - 16);
  60 => (1/32)*(260*xi_3 + 91*std::pow(2*xi_3 - 1, 2) - 87)*(24*std::pow(xi_3 - 1, 3) - 42*std::pow(xi_3 - 1, 2)*(8*xi_2 + 4*xi_3 - 4) - 168*(xi_3 - 1)*std::pow(2*xi_2 + xi_3 - 1, 2) + 504*std::pow(2*xi_2 + xi_3 - 1, 3));
  61 => (1/16)*(14*xi_3 - 1)*(840*std::pow(-xi_3 + 1, 2)*std::pow(-2*xi_2 - xi_3 + 1, 3) - 2310*(-xi_3 + 1)*std::pow(-2*xi_2 - xi_3 + 1, 4) + 70*std::pow(xi_3 - 1, 5) + 70*std::pow(xi_3 - 1, 4)*(8*xi_2 + 4*xi_3 - 4) - 1260*std::pow(xi_3 - 1, 3)*std::pow(-2*xi_2 - xi_3 + 1, 2))/(xi_3 - 1);
  62 => (1/16)*(-135*std::pow(-xi_3 + 1, 5)*(8*xi_2 + 4*xi_3 - 4) - 1980*std::pow(-xi_3 + 1, 2)*std::pow(-2*xi_2 - xi_3 + 1, 4) + 5148*(-xi_3 + 1)*std::pow(-2*xi_2 - xi_3 + 1, 5) - 60*std::pow(xi_3 - 1, 6) + 1080*std::pow(xi_3 - 1, 4)*std::pow(-2*xi_2 - xi_3 + 1, 2) + 3960*std::pow(xi_3 - 1, 3)*std::pow(-2*xi_2 - xi_3 + 1, 3))/(xi_3 - 1);
  63 => -95/8*xi_3 + (1001/16)*std::pow(2*xi_3 - 1, 5) + (715/8)*std::pow(2*xi_3 - 1, 4) + (55/8)*std::pow(2*xi_3 - 1, 3) - 55/2*std::pow(2*xi_3 - 1, 2) + 105/16;
  64 => (1/16)*(5*xi_2 + xi_3 - 1)*(-88*xi_3 + 1001*std::pow(2*xi_3 - 1, 4) + 1716*std::pow(2*xi_3 - 1, 3) + 726*std::pow(2*xi_3 - 1, 2) + 5) + (5/16)*(2*xi_1 + xi_2 + xi_3 - 1)*(-88*xi_3 + 1001*std::pow(2*xi_3 - 1, 4) + 1716*std::pow(2*xi_3 - 1, 3) + 726*std::pow(2*xi_3 - 1, 2) + 5);
  65 => -(36*std::pow(xi_3 - 1, 2) - 21*(xi_3 - 1)*(8*xi_2 + 4*xi_3 - 4))*(2*xi_1 + xi_2 + xi_3 - 1)*(150*xi_3 + 91*std::pow(2*xi_3 - 1, 3) + 156*std::pow(2*xi_3 - 1, 2) - 67)/(8*xi_3 - 8) - (36*xi_2*std::pow(xi_3 - 1, 2) + 17*std::pow(xi_3 - 1, 3) - 21*(xi_3 - 1)*std::pow(2*xi_2 + xi_3 - 1, 2))*(150*xi_3 + 91*std::pow(2*xi_3 - 1, 3) + 156*std::pow(2*xi_3 - 1, 2) - 67)/(8*xi_3 - 8);
  66 => (1/8)*(-21*(xi_3 - 1)*(8*xi_2 + 4*xi_3 - 4) + 126*std::pow(2*xi_2 + xi_3 - 1, 2))*(260*xi_3 + 91*std::pow(2*xi_3 - 1, 2) - 87)*(2*xi_1 + xi_2 + xi_3 - 1) + (1/8)*(260*xi_3 + 91*std::pow(2*xi_3 - 1, 2) - 87)*(2*std::pow(xi_3 - 1, 3) - 21*(xi_3 - 1)*std::pow(2*xi_2 + xi_3 - 1, 2) + 21*std::pow(2*xi_2 + xi_3 - 1, 3));
  67 => (1/8)*(14*xi_3 - 1)*(2*xi_1 + xi_2 + xi_3 - 1)*(88*std::pow(xi_3 - 1, 3) - 18*std::pow(xi_3 - 1, 2)*(8*xi_2 + 4*xi_3 - 4) - 1080*(xi_3 - 1)*std::pow(2*xi_2 + xi_3 - 1, 2) + 1320*std::pow(2*xi_2 + xi_3 - 1, 3)) + (1/8)*(14*xi_3 - 1)*(88*xi_2*std::pow(xi_3 - 1, 3) + 41*std::pow(xi_3 - 1, 4) - 18*std::pow(xi_3 - 1, 2)*std::pow(2*xi_2 + xi_3 - 1, 2) - 180*(xi_3 - 1)*std::pow(2*xi_2 + xi_3 - 1, 3) + 165*std::pow(2*xi_2 + xi_3 - 1, 4));
  68 => (1/32)*(2*xi_1 + xi_2 + xi_3 - 1)*(11880*std::pow(-xi_3 + 1, 2)*std::pow(-2*xi_2 - xi_3 + 1, 3) - 12870*(-xi_3 + 1)*std::pow(-2*xi_2 - xi_3 + 1, 4) - 90*std::pow(xi_3 - 1, 5) + 630*std::pow(xi_3 - 1, 4)*(8*xi_2 + 4*xi_3 - 4) - 1980*std::pow(xi_3 - 1, 3)*std::pow(-2*xi_2 - xi_3 + 1, 2))/(xi_3 - 1) + (1/32)*(-90*xi_2*std::pow(xi_3 - 1, 5) - 70*std::pow(-xi_3 + 1, 6) - 1485*std::pow(-xi_3 + 1, 2)*std::pow(-2*xi_2 - xi_3 + 1, 4) + 1287*(-xi_3 + 1)*std::pow(-2*xi_2 - xi_3 + 1, 5) + 630*std::pow(xi_3 - 1, 4)*std::pow(-2*xi_2 - xi_3 + 1, 2) + 330*std::pow(xi_3 - 1, 3)*std::pow(-2*xi_2 - xi_3 + 1, 3))/(xi_3 - 1);
  69 => (1/32)*(12*xi_1 + 4*xi_2 + 4*xi_3 - 4)*(-88*xi_3 + 1001*std::pow(2*xi_3 - 1, 4) + 1716*std::pow(2*xi_3 - 1, 3) + 726*std::pow(2*xi_3 - 1, 2) + 5);
  70 => (7/4)*(-std::pow(xi_2 + xi_3 - 1, 2) + 3*std::pow(2*xi_1 + xi_2 + xi_3 - 1, 2))*(150*xi_3 + 91*std::pow(2*xi_3 - 1, 3) + 156*std::pow(2*xi_3 - 1, 2) - 67) + (1/4)*(7*xi_2 + xi_3 - 1)*(12*xi_1 + 4*xi_2 + 4*xi_3 - 4)*(150*xi_3 + 91*std::pow(2*xi_3 - 1, 3) + 156*std::pow(2*xi_3 - 1, 2) - 67);
  71 => (20*std::pow(xi_3 - 1, 2) - 9*(xi_3 - 1)*(8*xi_2 + 4*xi_3 - 4))*(std::pow(xi_2 + xi_3 - 1, 2) - 3*std::pow(2*xi_1 + xi_2 + xi_3 - 1, 2))*(260*xi_3 + 91*std::pow(2*xi_3 - 1, 2) - 87)/(8*xi_3 - 8) + (260*xi_3 + 91*std::pow(2*xi_3 - 1, 2) - 87)*(20*xi_2*std::pow(xi_3 - 1, 2) + 8*std::pow(xi_3 - 1, 3) - 9*(xi_3 - 1)*std::pow(2*xi_2 + xi_3 - 1, 2))*(-12*xi_1 - 4*xi_2 - 4*xi_3 + 4)/(8*xi_3 - 8);
  72 => (1/16)*(14*xi_3 - 1)*(-std::pow(xi_2 + xi_3 - 1, 2) + 3*std::pow(2*xi_1 + xi_2 + xi_3 - 1, 2))*(-225*std::pow(-xi_3 + 1, 2)*(8*xi_2 + 4*xi_3 - 4) - 990*(-xi_3 + 1)*std::pow(-2*xi_2 - xi_3 + 1, 2) + 126*std::pow(xi_3 - 1, 3))/(xi_3 - 1) + (1/16)*(14*xi_3 - 1)*(12*xi_1 + 4*xi_2 + 4*xi_3 - 4)*(126*xi_2*std::pow(xi_3 - 1, 3) - 225*std::pow(-xi_3 + 1, 2)*std::pow(-2*xi_2 - xi_3 + 1, 2) + 165*(-xi_3 + 1)*std::pow(-2*xi_2 - xi_3 + 1, 3) + 68*std::pow(xi_3 - 1, 4))/(xi_3 - 1);
  73 => (1/32)*(-std::pow(xi_2 + xi_3 - 1, 2) + 3*std::pow(2*xi_1 + xi_2 + xi_3 - 1, 2))*(200*std::pow(xi_3 - 1, 3) + 330*std::pow(xi_3 - 1, 2)*(8*xi_2 + 4*xi_3 - 4) - 6600*(xi_3 - 1)*std::pow(2*xi_2 + xi_3 - 1, 2) + 5720*std::pow(2*xi_2 + xi_3 - 1, 3)) + (1/32)*(12*xi_1 + 4*xi_2 + 4*xi_3 - 4)*(200*xi_2*std::pow(xi_3 - 1, 3) + 71*std::pow(xi_3 - 1, 4) + 330*std::pow(xi_3 - 1, 2)*std::pow(2*xi_2 + xi_3 - 1, 2) - 1100*(xi_3 - 1)*std::pow(2*xi_2 + xi_3 - 1, 3) + 715*std::pow(2*xi_2 + xi_3 - 1, 4));
  74 => -(150*xi_3 + 91*std::pow(2*xi_3 - 1, 3) + 156*std::pow(2*xi_3 - 1, 2) - 67)*(18*xi_1*std::pow(xi_2 + xi_3 - 1, 2) + 12*std::pow(xi_2 + xi_3 - 1, 3) - 15*(xi_2 + xi_3 - 1)*std::pow(2*xi_1 + xi_2 + xi_3 - 1, 2) - 5*std::pow(2*xi_1 + xi_2 + xi_3 - 1, 3))/(4*xi_2 + 4*xi_3 - 4) + 4*(6*xi_1*std::pow(xi_2 + xi_3 - 1, 3) + 3*std::pow(xi_2 + xi_3 - 1, 4) - 5*(xi_2 + xi_3 - 1)*std::pow(2*xi_1 + xi_2 + xi_3 - 1, 3))*(150*xi_3 + 91*std::pow(2*xi_3 - 1, 3) + 156*std::pow(2*xi_3 - 1, 2) - 67)/std::pow(4*xi_2 + 4*xi_3 - 4, 2);
  75 => (1/8)*(9*xi_2 + xi_3 - 1)*(260*xi_3 + 91*std::pow(2*xi_3 - 1, 2) - 87)*(18*xi_1*std::pow(xi_2 + xi_3 - 1, 2) + 15*(-xi_2 - xi_3 + 1)*std::pow(2*xi_1 + xi_2 + xi_3 - 1, 2) + 12*std::pow(xi_2 + xi_3 - 1, 3) - 5*std::pow(2*xi_1 + xi_2 + xi_3 - 1, 3))/(-xi_2 - xi_3 + 1) + (9/8)*(260*xi_3 + 91*std::pow(2*xi_3 - 1, 2) - 87)*(6*xi_1*std::pow(xi_2 + xi_3 - 1, 3) + 5*(-xi_2 - xi_3 + 1)*std::pow(2*xi_1 + xi_2 + xi_3 - 1, 3) + 3*std::pow(xi_2 + xi_3 - 1, 4))/(-xi_2 - xi_3 + 1) + (1/8)*(9*xi_2 + xi_3 - 1)*(260*xi_3 + 91*std::pow(2*xi_3 - 1, 2) - 87)*(6*xi_1*std::pow(xi_2 + xi_3 - 1, 3) + 5*(-xi_2 - xi_3 + 1)*std::pow(2*xi_1 + xi_2 + xi_3 - 1, 3) + 3*std::pow(xi_2 + xi_3 - 1, 4))/std::pow(-xi_2 - xi_3 + 1, 2);
  76 => (1/8)*(14*xi_3 - 1)*(55*(-xi_3 + 1)*(8*xi_2 + 4*xi_3 - 4) + 140*std::pow(xi_3 - 1, 2))*(6*xi_1*std::pow(xi_2 + xi_3 - 1, 3) + 5*(-xi_2 - xi_3 + 1)*std::pow(2*xi_1 + xi_2 + xi_3 - 1, 3) + 3*std::pow(xi_2 + xi_3 - 1, 4))/((xi_3 - 1)*(xi_2 + xi_3 - 1)) + (1/8)*(14*xi_3 - 1)*(140*xi_2*std::pow(xi_3 - 1, 2) + 55*(-xi_3 + 1)*std::pow(-2*xi_2 - xi_3 + 1, 2) + 51*std::pow(xi_3 - 1, 3))*(18*xi_1*std::pow(xi_2 + xi_3 - 1, 2) + 15*(-xi_2 - xi_3 + 1)*std::pow(2*xi_1 + xi_2 + xi_3 - 1, 2) + 12*std::pow(xi_2 + xi_3 - 1, 3) - 5*std::pow(2*xi_1 + xi_2 + xi_3 - 1, 3))/((xi_3 - 1)*(xi_2 + xi_3 - 1)) - 1/8*(14*xi_3 - 1)*(6*xi_1*std::pow(xi_2 + xi_3 - 1, 3) + 5*(-xi_2 - xi_3 + 1)*std::pow(2*xi_1 + xi_2 + xi_3 - 1, 3) + 3*std::pow(xi_2 + xi_3 - 1, 4))*(140*xi_2*std::pow(xi_3 - 1, 2) + 55*(-xi_3 + 1)*std::pow(-2*xi_2 - xi_3 + 1, 2) + 51*std::pow(xi_3 - 1, 3))/((xi_3 - 1)*std::pow(xi_2 + xi_3 - 1, 2));
  77 => -(6*xi_1*std::pow(xi_2 + xi_3 - 1, 3) + 3*std::pow(xi_2 + xi_3 - 1, 4) - 5*(xi_2 + xi_3 - 1)*std::pow(2*xi_1 + xi_2 + xi_3 - 1, 3))*(198*std::pow(xi_3 - 1, 2) - 231*(xi_3 - 1)*(8*xi_2 + 4*xi_3 - 4) + 858*std::pow(2*xi_2 + xi_3 - 1, 2))/(8*xi_2 + 8*xi_3 - 8) - (18*xi_1*std::pow(xi_2 + xi_3 - 1, 2) + 12*std::pow(xi_2 + xi_3 - 1, 3) - 15*(xi_2 + xi_3 - 1)*std::pow(2*xi_1 + xi_2 + xi_3 - 1, 2) - 5*std::pow(2*xi_1 + xi_2 + xi_3 - 1, 3))*(198*xi_2*std::pow(xi_3 - 1, 2) + 92*std::pow(xi_3 - 1, 3) - 231*(xi_3 - 1)*std::pow(2*xi_2 + xi_3 - 1, 2) + 143*std::pow(2*xi_2 + xi_3 - 1, 3))/(8*xi_2 + 8*xi_3 - 8) + 8*(6*xi_1*std::pow(xi_2 + xi_3 - 1, 3) + 3*std::pow(xi_2 + xi_3 - 1, 4) - 5*(xi_2 + xi_3 - 1)*std::pow(2*xi_1 + xi_2 + xi_3 - 1, 3))*(198*xi_2*std::pow(xi_3 - 1, 2) + 92*std::pow(xi_3 - 1, 3) - 231*(xi_3 - 1)*std::pow(2*xi_2 + xi_3 - 1, 2) + 143*std::pow(2*xi_2 + xi_3 - 1, 3))/std::pow(8*xi_2 + 8*xi_3 - 8, 2);
  78 => (1/32)*(260*xi_3 + 91*std::pow(2*xi_3 - 1, 2) - 87)*(12*std::pow(xi_2 + xi_3 - 1, 3) - 30*std::pow(xi_2 + xi_3 - 1, 2)*(4*xi_1 + 2*xi_2 + 2*xi_3 - 2) - 30*(2*xi_2 + 2*xi_3 - 2)*std::pow(2*xi_1 + xi_2 + xi_3 - 1, 2) + 140*std::pow(2*xi_1 + xi_2 + xi_3 - 1, 3));
  79 => (1/8)*(14*xi_3 - 1)*(11*xi_2 + xi_3 - 1)*(12*std::pow(xi_2 + xi_3 - 1, 3) - 30*std::pow(xi_2 + xi_3 - 1, 2)*(4*xi_1 + 2*xi_2 + 2*xi_3 - 2) - 30*(2*xi_2 + 2*xi_3 - 2)*std::pow(2*xi_1 + xi_2 + xi_3 - 1, 2) + 140*std::pow(2*xi_1 + xi_2 + xi_3 - 1, 3)) + (11/8)*(14*xi_3 - 1)*(3*std::pow(xi_2 + xi_3 - 1, 4) - 30*std::pow(xi_2 + xi_3 - 1, 2)*std::pow(2*xi_1 + xi_2 + xi_3 - 1, 2) + 35*std::pow(2*xi_1 + xi_2 + xi_3 - 1, 4));
  80 => -(108*std::pow(xi_3 - 1, 2) - 39*(xi_3 - 1)*(8*xi_2 + 4*xi_3 - 4))*(3*std::pow(xi_2 + xi_3 - 1, 4) - 30*std::pow(xi_2 + xi_3 - 1, 2)*std::pow(2*xi_1 + xi_2 + xi_3 - 1, 2) + 35*std::pow(2*xi_1 + xi_2 + xi_3 - 1, 4))/(16*xi_3 - 16) - (108*xi_2*std::pow(xi_3 - 1, 2) + 37*std::pow(xi_3 - 1, 3) - 39*(xi_3 - 1)*std::pow(2*xi_2 + xi_3 - 1, 2))*(12*std::pow(xi_2 + xi_3 - 1, 3) - 30*std::pow(xi_2 + xi_3 - 1, 2)*(4*xi_1 + 2*xi_2 + 2*xi_3 - 2) - 30*(2*xi_2 + 2*xi_3 - 2)*std::pow(2*xi_1 + xi_2 + xi_3 - 1, 2) + 140*std::pow(2*xi_1 + xi_2 + xi_3 - 1, 3))/(16*xi_3 - 16);
  81 => (1/8)*(14*xi_3 - 1)*(150*xi_1*std::pow(xi_2 + xi_3 - 1, 4) - 315*(-xi_2 - xi_3 + 1)*std::pow(-2*xi_1 - xi_2 - xi_3 + 1, 4) + 90*std::pow(xi_2 + xi_3 - 1, 5) - 210*std::pow(xi_2 + xi_3 - 1, 3)*std::pow(-2*xi_1 - xi_2 - xi_3 + 1, 2) + 210*std::pow(xi_2 + xi_3 - 1, 2)*std::pow(-2*xi_1 - xi_2 - xi_3 + 1, 3) - 63*std::pow(-2*xi_1 - xi_2 - xi_3 + 1, 5))/(xi_2 + xi_3 - 1) - 1/8*(14*xi_3 - 1)*(30*xi_1*std::pow(xi_2 + xi_3 - 1, 5) + 63*(-xi_2 - xi_3 + 1)*std::pow(-2*xi_1 - xi_2 - xi_3 + 1, 5) + 15*std::pow(xi_2 + xi_3 - 1, 6) + 70*std::pow(xi_2 + xi_3 - 1, 3)*std::pow(-2*xi_1 - xi_2 - xi_3 + 1, 3))/std::pow(xi_2 + xi_3 - 1, 2);
  82 => (1/8)*(13*xi_2 + xi_3 - 1)*(150*xi_1*std::pow(xi_2 + xi_3 - 1, 4) - 315*(-xi_2 - xi_3 + 1)*std::pow(-2*xi_1 - xi_2 - xi_3 + 1, 4) + 90*std::pow(xi_2 + xi_3 - 1, 5) - 210*std::pow(xi_2 + xi_3 - 1, 3)*std::pow(-2*xi_1 - xi_2 - xi_3 + 1, 2) + 210*std::pow(xi_2 + xi_3 - 1, 2)*std::pow(-2*xi_1 - xi_2 - xi_3 + 1, 3) - 63*std::pow(-2*xi_1 - xi_2 - xi_3 + 1, 5))/(xi_2 + xi_3 - 1) + (13/8)*(30*xi_1*std::pow(xi_2 + xi_3 - 1, 5) + 63*(-xi_2 - xi_3 + 1)*std::pow(-2*xi_1 - xi_2 - xi_3 + 1, 5) + 15*std::pow(xi_2 + xi_3 - 1, 6) + 70*std::pow(xi_2 + xi_3 - 1, 3)*std::pow(-2*xi_1 - xi_2 - xi_3 + 1, 3))/(xi_2 + xi_3 - 1) - 1/8*(13*xi_2 + xi_3 - 1)*(30*xi_1*std::pow(xi_2 + xi_3 - 1, 5) + 63*(-xi_2 - xi_3 + 1)*std::pow(-2*xi_1 - xi_2 - xi_3 + 1, 5) + 15*std::pow(xi_2 + xi_3 - 1, 6) + 70*std::pow(xi_2 + xi_3 - 1, 3)*std::pow(-2*xi_1 - xi_2 - xi_3 + 1, 3))/std::pow(xi_2 + xi_3 - 1, 2);
  83 => -15/8*std::pow(xi_2 + xi_3 - 1, 5) + (105/16)*std::pow(xi_2 + xi_3 - 1, 4)*(4*xi_1 + 2*xi_2 + 2*xi_3 - 2) + (105/4)*std::pow(xi_2 + xi_3 - 1, 3)*std::pow(2*xi_1 + xi_2 + xi_3 - 1, 2) - 315/4*std::pow(xi_2 + xi_3 - 1, 2)*std::pow(2*xi_1 + xi_2 + xi_3 - 1, 3) - 315/16*(2*xi_2 + 2*xi_3 - 2)*std::pow(2*xi_1 + xi_2 + xi_3 - 1, 4) + (693/8)*std::pow(2*xi_1 + xi_2 + xi_3 - 1, 5);
  84 => 0;
  85 => (297/8)*xi_3 + (3003/8)*std::pow(2*xi_3 - 1, 6) + (9009/16)*std::pow(2*xi_3 - 1, 5) - 2145/8*std::pow(2*xi_3 - 1, 3) - 495/8*std::pow(2*xi_3 - 1, 2) - 249/16;
  86 => -(4*std::pow(xi_3 - 1, 2) - 5*(xi_3 - 1)*(8*xi_2 + 4*xi_3 - 4))*(-600*xi_3 + 2184*std::pow(2*xi_3 - 1, 5) + 4095*std::pow(2*xi_3 - 1, 4) + 1820*std::pow(2*xi_3 - 1, 3) - 390*std::pow(2*xi_3 - 1, 2) + 283)/(32*xi_3 - 32);
  87 => -(30*std::pow(xi_3 - 1, 3) + 15*std::pow(xi_3 - 1, 2)*(8*xi_2 + 4*xi_3 - 4) - 210*(xi_3 - 1)*std::pow(2*xi_2 + xi_3 - 1, 2))*(156*xi_3 + 455*std::pow(2*xi_3 - 1, 4) + 910*std::pow(2*xi_3 - 1, 3) + 546*std::pow(2*xi_3 - 1, 2) - 87)/(32*xi_3 - 32);
  88 => (1/32)*(588*xi_3 + 280*std::pow(2*xi_3 - 1, 3) + 525*std::pow(2*xi_3 - 1, 2) - 249)*(24*std::pow(xi_3 - 1, 3) - 42*std::pow(xi_3 - 1, 2)*(8*xi_2 + 4*xi_3 - 4) - 168*(xi_3 - 1)*std::pow(2*xi_2 + xi_3 - 1, 2) + 504*std::pow(2*xi_2 + xi_3 - 1, 3));
  89 => (1/16)*(90*xi_3 + 30*std::pow(2*xi_3 - 1, 2) - 29)*(840*std::pow(-xi_3 + 1, 2)*std::pow(-2*xi_2 - xi_3 + 1, 3) - 2310*(-xi_3 + 1)*std::pow(-2*xi_2 - xi_3 + 1, 4) + 70*std::pow(xi_3 - 1, 5) + 70*std::pow(xi_3 - 1, 4)*(8*xi_2 + 4*xi_3 - 4) - 1260*std::pow(xi_3 - 1, 3)*std::pow(-2*xi_2 - xi_3 + 1, 2))/(xi_3 - 1);
  90 => -(16*xi_3 - 1)*(60*std::pow(xi_3 - 1, 6) - 135*std::pow(xi_3 - 1, 5)*(8*xi_2 + 4*xi_3 - 4) - 1080*std::pow(xi_3 - 1, 4)*std::pow(2*xi_2 + xi_3 - 1, 2) + 3960*std::pow(xi_3 - 1, 3)*std::pow(2*xi_2 + xi_3 - 1, 3) + 1980*std::pow(xi_3 - 1, 2)*std::pow(2*xi_2 + xi_3 - 1, 4) - 5148*(xi_3 - 1)*std::pow(2*xi_2 + xi_3 - 1, 5))/(16*xi_3 - 16);
  91 => (1/128)*(-20790*std::pow(-xi_3 + 1, 5)*std::pow(2*xi_2 + xi_3 - 1, 2) + 27720*std::pow(-xi_3 + 1, 4)*std::pow(2*xi_2 + xi_3 - 1, 3) - 90090*(-xi_3 + 1)*std::pow(2*xi_2 + xi_3 - 1, 6) - 630*std::pow(xi_3 - 1, 7) - 945*std::pow(xi_3 - 1, 6)*(8*xi_2 + 4*xi_3 - 4) - 90090*std::pow(xi_3 - 1, 3)*std::pow(2*xi_2 + xi_3 - 1, 4) - 36036*std::pow(xi_3 - 1, 2)*std::pow(2*xi_2 + xi_3 - 1, 5))/(xi_3 - 1);
  92 => (99/8)*xi_3 + (1001/8)*std::pow(2*xi_3 - 1, 6) + (3003/16)*std::pow(2*xi_3 - 1, 5) - 715/8*std::pow(2*xi_3 - 1, 3) - 165/8*std::pow(2*xi_3 - 1, 2) - 83/16;
  93 => (1/16)*(5*xi_2 + xi_3 - 1)*(-600*xi_3 + 2184*std::pow(2*xi_3 - 1, 5) + 4095*std::pow(2*xi_3 - 1, 4) + 1820*std::pow(2*xi_3 - 1, 3) - 390*std::pow(2*xi_3 - 1, 2) + 283) + (5/16)*(2*xi_1 + xi_2 + xi_3 - 1)*(-600*xi_3 + 2184*std::pow(2*xi_3 - 1, 5) + 4095*std::pow(2*xi_3 - 1, 4) + 1820*std::pow(2*xi_3 - 1, 3) - 390*std::pow(2*xi_3 - 1, 2) + 283);
  94 => -(36*std::pow(xi_3 - 1, 2) - 21*(xi_3 - 1)*(8*xi_2 + 4*xi_3 - 4))*(2*xi_1 + xi_2 + xi_3 - 1)*(156*xi_3 + 455*std::pow(2*xi_3 - 1, 4) + 910*std::pow(2*xi_3 - 1, 3) + 546*std::pow(2*xi_3 - 1, 2) - 87)/(16*xi_3 - 16) - (36*xi_2*std::pow(xi_3 - 1, 2) + 17*std::pow(xi_3 - 1, 3) - 21*(xi_3 - 1)*std::pow(2*xi_2 + xi_3 - 1, 2))*(156*xi_3 + 455*std::pow(2*xi_3 - 1, 4) + 910*std::pow(2*xi_3 - 1, 3) + 546*std::pow(2*xi_3 - 1, 2) - 87)/(16*xi_3 - 16);
  95 => (1/8)*(-21*(xi_3 - 1)*(8*xi_2 + 4*xi_3 - 4) + 126*std::pow(2*xi_2 + xi_3 - 1, 2))*(2*xi_1 + xi_2 + xi_3 - 1)*(588*xi_3 + 280*std::pow(2*xi_3 - 1, 3) + 525*std::pow(2*xi_3 - 1, 2) - 249) + (1/8)*(2*std::pow(xi_3 - 1, 3) - 21*(xi_3 - 1)*std::pow(2*xi_2 + xi_3 - 1, 2) + 21*std::pow(2*xi_2 + xi_3 - 1, 3))*(588*xi_3 + 280*std::pow(2*xi_3 - 1, 3) + 525*std::pow(2*xi_3 - 1, 2) - 249);
  96 => (1/8)*(90*xi_3 + 30*std::pow(2*xi_3 - 1, 2) - 29)*(2*xi_1 + xi_2 + xi_3 - 1)*(88*std::pow(xi_3 - 1, 3) - 18*std::pow(xi_3 - 1, 2)*(8*xi_2 + 4*xi_3 - 4) - 1080*(xi_3 - 1)*std::pow(2*xi_2 + xi_3 - 1, 2) + 1320*std::pow(2*xi_2 + xi_3 - 1, 3)) + (1/8)*(90*xi_3 + 30*std::pow(2*xi_3 - 1, 2) - 29)*(88*xi_2*std::pow(xi_3 - 1, 3) + 41*std::pow(xi_3 - 1, 4) - 18*std::pow(xi_3 - 1, 2)*std::pow(2*xi_2 + xi_3 - 1, 2) - 180*(xi_3 - 1)*std::pow(2*xi_2 + xi_3 - 1, 3) + 165*std::pow(2*xi_2 + xi_3 - 1, 4));
  97 => (1/32)*(16*xi_3 - 1)*(2*xi_1 + xi_2 + xi_3 - 1)*(11880*std::pow(-xi_3 + 1, 2)*std::pow(-2*xi_2 - xi_3 + 1, 3) - 12870*(-xi_3 + 1)*std::pow(-2*xi_2 - xi_3 + 1, 4) - 90*std::pow(xi_3 - 1, 5) + 630*std::pow(xi_3 - 1, 4)*(8*xi_2 + 4*xi_3 - 4) - 1980*std::pow(xi_3 - 1, 3)*std::pow(-2*xi_2 - xi_3 + 1, 2))/(xi_3 - 1) + (1/32)*(16*xi_3 - 1)*(-90*xi_2*std::pow(xi_3 - 1, 5) - 70*std::pow(-xi_3 + 1, 6) - 1485*std::pow(-xi_3 + 1, 2)*std::pow(-2*xi_2 - xi_3 + 1, 4) + 1287*(-xi_3 + 1)*std::pow(-2*xi_2 - xi_3 + 1, 5) + 630*std::pow(xi_3 - 1, 4)*std::pow(-2*xi_2 - xi_3 + 1, 2) + 330*std::pow(xi_3 - 1, 3)*std::pow(-2*xi_2 - xi_3 + 1, 3))/(xi_3 - 1);
  98 => -(2*xi_1 + xi_2 + xi_3 - 1)*(780*std::pow(xi_3 - 1, 6) + 165*std::pow(xi_3 - 1, 5)*(8*xi_2 + 4*xi_3 - 4) - 22440*std::pow(xi_3 - 1, 4)*std::pow(2*xi_2 + xi_3 - 1, 2) + 17160*std::pow(xi_3 - 1, 3)*std::pow(2*xi_2 + xi_3 - 1, 3) + 60060*std::pow(xi_3 - 1, 2)*std::pow(2*xi_2 + xi_3 - 1, 4) - 60060*(xi_3 - 1)*std::pow(2*xi_2 + xi_3 - 1, 5))/(64*xi_3 - 64) - (780*xi_2*std::pow(xi_3 - 1, 6) + 365*std::pow(xi_3 - 1, 7) + 165*std::pow(xi_3 - 1, 5)*std::pow(2*xi_2 + xi_3 - 1, 2) - 3740*std::pow(xi_3 - 1, 4)*std::pow(2*xi_2 + xi_3 - 1, 3) + 2145*std::pow(xi_3 - 1, 3)*std::pow(2*xi_2 + xi_3 - 1, 4) + 6006*std::pow(xi_3 - 1, 2)*std::pow(2*xi_2 + xi_3 - 1, 5) - 5005*(xi_3 - 1)*std::pow(2*xi_2 + xi_3 - 1, 6))/(64*xi_3 - 64);
  99 => (1/32)*(12*xi_1 + 4*xi_2 + 4*xi_3 - 4)*(-600*xi_3 + 2184*std::pow(2*xi_3 - 1, 5) + 4095*std::pow(2*xi_3 - 1, 4) + 1820*std::pow(2*xi_3 - 1, 3) - 390*std::pow(2*xi_3 - 1, 2) + 283);
  100 => (7/8)*(-std::pow(xi_2 + xi_3 - 1, 2) + 3*std::pow(2*xi_1 + xi_2 + xi_3 - 1, 2))*(156*xi_3 + 455*std::pow(2*xi_3 - 1, 4) + 910*std::pow(2*xi_3 - 1, 3) + 546*std::pow(2*xi_3 - 1, 2) - 87) + (1/8)*(7*xi_2 + xi_3 - 1)*(12*xi_1 + 4*xi_2 + 4*xi_3 - 4)*(156*xi_3 + 455*std::pow(2*xi_3 - 1, 4) + 910*std::pow(2*xi_3 - 1, 3) + 546*std::pow(2*xi_3 - 1, 2) - 87);
  101 => (20*std::pow(xi_3 - 1, 2) - 9*(xi_3 - 1)*(8*xi_2 + 4*xi_3 - 4))*(std::pow(xi_2 + xi_3 - 1, 2) - 3*std::pow(2*xi_1 + xi_2 + xi_3 - 1, 2))*(588*xi_3 + 280*std::pow(2*xi_3 - 1, 3) + 525*std::pow(2*xi_3 - 1, 2) - 249)/(8*xi_3 - 8) + (20*xi_2*std::pow(xi_3 - 1, 2) + 8*std::pow(xi_3 - 1, 3) - 9*(xi_3 - 1)*std::pow(2*xi_2 + xi_3 - 1, 2))*(-12*xi_1 - 4*xi_2 - 4*xi_3 + 4)*(588*xi_3 + 280*std::pow(2*xi_3 - 1, 3) + 525*std::pow(2*xi_3 - 1, 2) - 249)/(8*xi_3 - 8);
  102 => (1/16)*(-std::pow(xi_2 + xi_3 - 1, 2) + 3*std::pow(2*xi_1 + xi_2 + xi_3 - 1, 2))*(90*xi_3 + 30*std::pow(2*xi_3 - 1, 2) - 29)*(-225*std::pow(-xi_3 + 1, 2)*(8*xi_2 + 4*xi_3 - 4) - 990*(-xi_3 + 1)*std::pow(-2*xi_2 - xi_3 + 1, 2) + 126*std::pow(xi_3 - 1, 3))/(xi_3 - 1) + (1/16)*(90*xi_3 + 30*std::pow(2*xi_3 - 1, 2) - 29)*(12*xi_1 + 4*xi_2 + 4*xi_3 - 4)*(126*xi_2*std::pow(xi_3 - 1, 3) - 225*std::pow(-xi_3 + 1, 2)*std::pow(-2*xi_2 - xi_3 + 1, 2) + 165*(-xi_3 + 1)*std::pow(-2*xi_2 - xi_3 + 1, 3) + 68*std::pow(xi_3 - 1, 4))/(xi_3 - 1);
  103 => (1/32)*(16*xi_3 - 1)*(-std::pow(xi_2 + xi_3 - 1, 2) + 3*std::pow(2*xi_1 + xi_2 + xi_3 - 1, 2))*(200*std::pow(xi_3 - 1, 3) + 330*std::pow(xi_3 - 1, 2)*(8*xi_2 + 4*xi_3 - 4) - 6600*(xi_3 - 1)*std::pow(2*xi_2 + xi_3 - 1, 2) + 5720*std::pow(2*xi_2 + xi_3 - 1, 3)) + (1/32)*(16*xi_3 - 1)*(12*xi_1 + 4*xi_2 + 4*xi_3 - 4)*(200*xi_2*std::pow(xi_3 - 1, 3) + 71*std::pow(xi_3 - 1, 4) + 330*std::pow(xi_3 - 1, 2)*std::pow(2*xi_2 + xi_3 - 1, 2) - 1100*(xi_3 - 1)*std::pow(2*xi_2 + xi_3 - 1, 3) + 715*std::pow(2*xi_2 + xi_3 - 1, 4));
  104 => (std::pow(xi_2 + xi_3 - 1, 2) - 3*std::pow(2*xi_1 + xi_2 + xi_3 - 1, 2))*(770*std::pow(xi_3 - 1, 5) - 990*std::pow(xi_3 - 1, 4)*(8*xi_2 + 4*xi_3 - 4) - 8580*std::pow(xi_3 - 1, 3)*std::pow(2*xi_2 + xi_3 - 1, 2) + 40040*std::pow(xi_3 - 1, 2)*std::pow(2*xi_2 + xi_3 - 1, 3) - 30030*(xi_3 - 1)*std::pow(2*xi_2 + xi_3 - 1, 4))/(64*xi_3 - 64) + (-12*xi_1 - 4*xi_2 - 4*xi_3 + 4)*(770*xi_2*std::pow(xi_3 - 1, 5) + 386*std::pow(xi_3 - 1, 6) - 990*std::pow(xi_3 - 1, 4)*std::pow(2*xi_2 + xi_3 - 1, 2) - 1430*std::pow(xi_3 - 1, 3)*std::pow(2*xi_2 + xi_3 - 1, 3) + 5005*std::pow(xi_3 - 1, 2)*std::pow(2*xi_2 + xi_3 - 1, 4) - 3003*(xi_3 - 1)*std::pow(2*xi_2 + xi_3 - 1, 5))/(64*xi_3 - 64);
  105 => -(18*xi_1*std::pow(xi_2 + xi_3 - 1, 2) + 12*std::pow(xi_2 + xi_3 - 1, 3) - 15*(xi_2 + xi_3 - 1)*std::pow(2*xi_1 + xi_2 + xi_3 - 1, 2) - 5*std::pow(2*xi_1 + xi_2 + xi_3 - 1, 3))*(156*xi_3 + 455*std::pow(2*xi_3 - 1, 4) + 910*std::pow(2*xi_3 - 1, 3) + 546*std::pow(2*xi_3 - 1, 2) - 87)/(8*xi_2 + 8*xi_3 - 8) + 8*(6*xi_1*std::pow(xi_2 + xi_3 - 1, 3) + 3*std::pow(xi_2 + xi_3 - 1, 4) - 5*(xi_2 + xi_3 - 1)*std::pow(2*xi_1 + xi_2 + xi_3 - 1, 3))*(156*xi_3 + 455*std::pow(2*xi_3 - 1, 4) + 910*std::pow(2*xi_3 - 1, 3) + 546*std::pow(2*xi_3 - 1, 2) - 87)/std::pow(8*xi_2 + 8*xi_3 - 8, 2);
  106 => (1/8)*(9*xi_2 + xi_3 - 1)*(588*xi_3 + 280*std::pow(2*xi_3 - 1, 3) + 525*std::pow(2*xi_3 - 1, 2) - 249)*(18*xi_1*std::pow(xi_2 + xi_3 - 1, 2) + 15*(-xi_2 - xi_3 + 1)*std::pow(2*xi_1 + xi_2 + xi_3 - 1, 2) + 12*std::pow(xi_2 + xi_3 - 1, 3) - 5*std::pow(2*xi_1 + xi_2 + xi_3 - 1, 3))/(-xi_2 - xi_3 + 1) + (9/8)*(6*xi_1*std::pow(xi_2 + xi_3 - 1, 3) + 5*(-xi_2 - xi_3 + 1)*std::pow(2*xi_1 + xi_2 + xi_3 - 1, 3) + 3*std::pow(xi_2 + xi_3 - 1, 4))*(588*xi_3 + 280*std::pow(2*xi_3 - 1, 3) + 525*std::pow(2*xi_3 - 1, 2) - 249)/(-xi_2 - xi_3 + 1) + (1/8)*(9*xi_2 + xi_3 - 1)*(6*xi_1*std::pow(xi_2 + xi_3 - 1, 3) + 5*(-xi_2 - xi_3 + 1)*std::pow(2*xi_1 + xi_2 + xi_3 - 1, 3) + 3*std::pow(xi_2 + xi_3 - 1, 4))*(588*xi_3 + 280*std::pow(2*xi_3 - 1, 3) + 525*std::pow(2*xi_3 - 1, 2) - 249)/std::pow(-xi_2 - xi_3 + 1, 2);
  107 => (1/8)*(55*(-xi_3 + 1)*(8*xi_2 + 4*xi_3 - 4) + 140*std::pow(xi_3 - 1, 2))*(90*xi_3 + 30*std::pow(2*xi_3 - 1, 2) - 29)*(6*xi_1*std::pow(xi_2 + xi_3 - 1, 3) + 5*(-xi_2 - xi_3 + 1)*std::pow(2*xi_1 + xi_2 + xi_3 - 1, 3) + 3*std::pow(xi_2 + xi_3 - 1, 4))/((xi_3 - 1)*(xi_2 + xi_3 - 1)) + (1/8)*(90*xi_3 + 30*std::pow(2*xi_3 - 1, 2) - 29)*(140*xi_2*std::pow(xi_3 - 1, 2) + 55*(-xi_3 + 1)*std::pow(-2*xi_2 - xi_3 + 1, 2) + 51*std::pow(xi_3 - 1, 3))*(18*xi_1*std::pow(xi_2 + xi_3 - 1, 2) + 15*(-xi_2 - xi_3 + 1)*std::pow(2*xi_1 + xi_2 + xi_3 - 1, 2) + 12*std::pow(xi_2 + xi_3 - 1, 3) - 5*std::pow(2*xi_1 + xi_2 + xi_3 - 1, 3))/((xi_3 - 1)*(xi_2 + xi_3 - 1)) - 1/8*(90*xi_3 + 30*std::pow(2*xi_3 - 1, 2) - 29)*(6*xi_1*std::pow(xi_2 + xi_3 - 1, 3) + 5*(-xi_2 - xi_3 + 1)*std::pow(2*xi_1 + xi_2 + xi_3 - 1, 3) + 3*std::pow(xi_2 + xi_3 - 1, 4))*(140*xi_2*std::pow(xi_3 - 1, 2) + 55*(-xi_3 + 1)*std::pow(-2*xi_2 - xi_3 + 1, 2) + 51*std::pow(xi_3 - 1, 3))/((xi_3 - 1)*std::pow(xi_2 + xi_3 - 1, 2));
  108 => -(16*xi_3 - 1)*(6*xi_1*std::pow(xi_2 + xi_3 - 1, 3) + 3*std::pow(xi_2 + xi_3 - 1, 4) - 5*(xi_2 + xi_3 - 1)*std::pow(2*xi_1 + xi_2 + xi_3 - 1, 3))*(198*std::pow(xi_3 - 1, 2) - 231*(xi_3 - 1)*(8*xi_2 + 4*xi_3 - 4) + 858*std::pow(2*xi_2 + xi_3 - 1, 2))/(8*xi_2 + 8*xi_3 - 8) - (16*xi_3 - 1)*(18*xi_1*std::pow(xi_2 + xi_3 - 1, 2) + 12*std::pow(xi_2 + xi_3 - 1, 3) - 15*(xi_2 + xi_3 - 1)*std::pow(2*xi_1 + xi_2 + xi_3 - 1, 2) - 5*std::pow(2*xi_1 + xi_2 + xi_3 - 1, 3))*(198*xi_2*std::pow(xi_3 - 1, 2) + 92*std::pow(xi_3 - 1, 3) - 231*(xi_3 - 1)*std::pow(2*xi_2 + xi_3 - 1, 2) + 143*std::pow(2*xi_2 + xi_3 - 1, 3))/(8*xi_2 + 8*xi_3 - 8) + 8*(16*xi_3 - 1)*(6*xi_1*std::pow(xi_2 + xi_3 - 1, 3) + 3*std::pow(xi_2 + xi_3 - 1, 4) - 5*(xi_2 + xi_3 - 1)*std::pow(2*xi_1 + xi_2 + xi_3 - 1, 3))*(198*xi_2*std::pow(xi_3 - 1, 2) + 92*std::pow(xi_3 - 1, 3) - 231*(xi_3 - 1)*std::pow(2*xi_2 + xi_3 - 1, 2) + 143*std::pow(2*xi_2 + xi_3 - 1, 3))/std::pow(8*xi_2 + 8*xi_3 - 8, 2);
  109 => (6*xi_1*std::pow(xi_2 + xi_3 - 1, 3) + 3*std::pow(xi_2 + xi_3 - 1, 4) - 5*(xi_2 + xi_3 - 1)*std::pow(2*xi_1 + xi_2 + xi_3 - 1, 3))*(168*std::pow(xi_3 - 1, 3) - 1326*std::pow(xi_3 - 1, 2)*(8*xi_2 + 4*xi_3 - 4) + 15288*(xi_3 - 1)*std::pow(2*xi_2 + xi_3 - 1, 2) - 10920*std::pow(2*xi_2 + xi_3 - 1, 3))/(32*xi_2 + 32*xi_3 - 32) + (18*xi_1*std::pow(xi_2 + xi_3 - 1, 2) + 12*std::pow(xi_2 + xi_3 - 1, 3) - 15*(xi_2 + xi_3 - 1)*std::pow(2*xi_1 + xi_2 + xi_3 - 1, 2) - 5*std::pow(2*xi_1 + xi_2 + xi_3 - 1, 3))*(168*xi_2*std::pow(xi_3 - 1, 3) + 127*std::pow(xi_3 - 1, 4) - 1326*std::pow(xi_3 - 1, 2)*std::pow(2*xi_2 + xi_3 - 1, 2) + 2548*(xi_3 - 1)*std::pow(2*xi_2 + xi_3 - 1, 3) - 1365*std::pow(2*xi_2 + xi_3 - 1, 4))/(32*xi_2 + 32*xi_3 - 32) - 32*(6*xi_1*std::pow(xi_2 + xi_3 - 1, 3) + 3*std::pow(xi_2 + xi_3 - 1, 4) - 5*(xi_2 + xi_3 - 1)*std::pow(2*xi_1 + xi_2 + xi_3 - 1, 3))*(168*xi_2*std::pow(xi_3 - 1, 3) + 127*std::pow(xi_3 - 1, 4) - 1326*std::pow(xi_3 - 1, 2)*std::pow(2*xi_2 + xi_3 - 1, 2) + 2548*(xi_3 - 1)*std::pow(2*xi_2 + xi_3 - 1, 3) - 1365*std::pow(2*xi_2 + xi_3 - 1, 4))/std::pow(32*xi_2 + 32*xi_3 - 32, 2);
  110 => (1/32)*(588*xi_3 + 280*std::pow(2*xi_3 - 1, 3) + 525*std::pow(2*xi_3 - 1, 2) - 249)*(12*std::pow(xi_2 + xi_3 - 1, 3) - 30*std::pow(xi_2 + xi_3 - 1, 2)*(4*xi_1 + 2*xi_2 + 2*xi_3 - 2) - 30*(2*xi_2 + 2*xi_3 - 2)*std::pow(2*xi_1 + xi_2 + xi_3 - 1, 2) + 140*std::pow(2*xi_1 + xi_2 + xi_3 - 1, 3));
  111 => (1/8)*(11*xi_2 + xi_3 - 1)*(90*xi_3 + 30*std::pow(2*xi_3 - 1, 2) - 29)*(12*std::pow(xi_2 + xi_3 - 1, 3) - 30*std::pow(xi_2 + xi_3 - 1, 2)*(4*xi_1 + 2*xi_2 + 2*xi_3 - 2) - 30*(2*xi_2 + 2*xi_3 - 2)*std::pow(2*xi_1 + xi_2 + xi_3 - 1, 2) + 140*std::pow(2*xi_1 + xi_2 + xi_3 - 1, 3)) + (11/8)*(90*xi_3 + 30*std::pow(2*xi_3 - 1, 2) - 29)*(3*std::pow(xi_2 + xi_3 - 1, 4) - 30*std::pow(xi_2 + xi_3 - 1, 2)*std::pow(2*xi_1 + xi_2 + xi_3 - 1, 2) + 35*std::pow(2*xi_1 + xi_2 + xi_3 - 1, 4));
  112 => -(16*xi_3 - 1)*(108*std::pow(xi_3 - 1, 2) - 39*(xi_3 - 1)*(8*xi_2 + 4*xi_3 - 4))*(3*std::pow(xi_2 + xi_3 - 1, 4) - 30*std::pow(xi_2 + xi_3 - 1, 2)*std::pow(2*xi_1 + xi_2 + xi_3 - 1, 2) + 35*std::pow(2*xi_1 + xi_2 + xi_3 - 1, 4))/(16*xi_3 - 16) - (16*xi_3 - 1)*(108*xi_2*std::pow(xi_3 - 1, 2) + 37*std::pow(xi_3 - 1, 3) - 39*(xi_3 - 1)*std::pow(2*xi_2 + xi_3 - 1, 2))*(12*std::pow(xi_2 + xi_3 - 1, 3) - 30*std::pow(xi_2 + xi_3 - 1, 2)*(4*xi_1 + 2*xi_2 + 2*xi_3 - 2) - 30*(2*xi_2 + 2*xi_3 - 2)*std::pow(2*xi_1 + xi_2 + xi_3 - 1, 2) + 140*std::pow(2*xi_1 + xi_2 + xi_3 - 1, 3))/(16*xi_3 - 16);
  113 => (1/64)*(-819*std::pow(-xi_3 + 1, 2)*(8*xi_2 + 4*xi_3 - 4) - 2730*(-xi_3 + 1)*std::pow(-2*xi_2 - xi_3 + 1, 2) + 858*std::pow(xi_3 - 1, 3))*(3*std::pow(xi_2 + xi_3 - 1, 4) - 30*std::pow(xi_2 + xi_3 - 1, 2)*std::pow(2*xi_1 + xi_2 + xi_3 - 1, 2) + 35*std::pow(2*xi_1 + xi_2 + xi_3 - 1, 4))/(xi_3 - 1) + (1/64)*(858*xi_2*std::pow(xi_3 - 1, 3) - 819*std::pow(-xi_3 + 1, 2)*std::pow(-2*xi_2 - xi_3 + 1, 2) + 455*(-xi_3 + 1)*std::pow(-2*xi_2 - xi_3 + 1, 3) + 372*std::pow(xi_3 - 1, 4))*(12*std::pow(xi_2 + xi_3 - 1, 3) - 30*std::pow(xi_2 + xi_3 - 1, 2)*(4*xi_1 + 2*xi_2 + 2*xi_3 - 2) - 30*(2*xi_2 + 2*xi_3 - 2)*std::pow(2*xi_1 + xi_2 + xi_3 - 1, 2) + 140*std::pow(2*xi_1 + xi_2 + xi_3 - 1, 3))/(xi_3 - 1);
  114 => (1/8)*(90*xi_3 + 30*std::pow(2*xi_3 - 1, 2) - 29)*(150*xi_1*std::pow(xi_2 + xi_3 - 1, 4) - 315*(-xi_2 - xi_3 + 1)*std::pow(-2*xi_1 - xi_2 - xi_3 + 1, 4) + 90*std::pow(xi_2 + xi_3 - 1, 5) - 210*std::pow(xi_2 + xi_3 - 1, 3)*std::pow(-2*xi_1 - xi_2 - xi_3 + 1, 2) + 210*std::pow(xi_2 + xi_3 - 1, 2)*std::pow(-2*xi_1 - xi_2 - xi_3 + 1, 3) - 63*std::pow(-2*xi_1 - xi_2 - xi_3 + 1, 5))/(xi_2 + xi_3 - 1) - 1/8*(90*xi_3 + 30*std::pow(2*xi_3 - 1, 2) - 29)*(30*xi_1*std::pow(xi_2 + xi_3 - 1, 5) + 63*(-xi_2 - xi_3 + 1)*std::pow(-2*xi_1 - xi_2 - xi_3 + 1, 5) + 15*std::pow(xi_2 + xi_3 - 1, 6) + 70*std::pow(xi_2 + xi_3 - 1, 3)*std::pow(-2*xi_1 - xi_2 - xi_3 + 1, 3))/std::pow(xi_2 + xi_3 - 1, 2);
  115 => (1/8)*(16*xi_3 - 1)*(13*xi_2 + xi_3 - 1)*(150*xi_1*std::pow(xi_2 + xi_3 - 1, 4) - 315*(-xi_2 - xi_3 + 1)*std::pow(-2*xi_1 - xi_2 - xi_3 + 1, 4) + 90*std::pow(xi_2 + xi_3 - 1, 5) - 210*std::pow(xi_2 + xi_3 - 1, 3)*std::pow(-2*xi_1 - xi_2 - xi_3 + 1, 2) + 210*std::pow(xi_2 + xi_3 - 1, 2)*std::pow(-2*xi_1 - xi_2 - xi_3 + 1, 3) - 63*std::pow(-2*xi_1 - xi_2 - xi_3 + 1, 5))/(xi_2 + xi_3 - 1) + (13/8)*(16*xi_3 - 1)*(30*xi_1*std::pow(xi_2 + xi_3 - 1, 5) + 63*(-xi_2 - xi_3 + 1)*std::pow(-2*xi_1 - xi_2 - xi_3 + 1, 5) + 15*std::pow(xi_2 + xi_3 - 1, 6) + 70*std::pow(xi_2 + xi_3 - 1, 3)*std::pow(-2*xi_1 - xi_2 - xi_3 + 1, 3))/(xi_2 + xi_3 - 1) - 1/8*(16*xi_3 - 1)*(13*xi_2 + xi_3 - 1)*(30*xi_1*std::pow(xi_2 + xi_3 - 1, 5) + 63*(-xi_2 - xi_3 + 1)*std::pow(-2*xi_1 - xi_2 - xi_3 + 1, 5) + 15*std::pow(xi_2 + xi_3 - 1, 6) + 70*std::pow(xi_2 + xi_3 - 1, 3)*std::pow(-2*xi_1 - xi_2 - xi_3 + 1, 3))/std::pow(xi_2 + xi_3 - 1, 2);
  116 => -1/32*(308*std::pow(xi_3 - 1, 2) - 105*(xi_3 - 1)*(8*xi_2 + 4*xi_3 - 4))*(30*xi_1*std::pow(xi_2 + xi_3 - 1, 5) + 15*std::pow(xi_2 + xi_3 - 1, 6) - 70*std::pow(xi_2 + xi_3 - 1, 3)*std::pow(2*xi_1 + xi_2 + xi_3 - 1, 3) + 63*(xi_2 + xi_3 - 1)*std::pow(2*xi_1 + xi_2 + xi_3 - 1, 5))/((xi_3 - 1)*(xi_2 + xi_3 - 1)) - 1/32*(308*xi_2*std::pow(xi_3 - 1, 2) + 101*std::pow(xi_3 - 1, 3) - 105*(xi_3 - 1)*std::pow(2*xi_2 + xi_3 - 1, 2))*(150*xi_1*std::pow(xi_2 + xi_3 - 1, 4) + 90*std::pow(xi_2 + xi_3 - 1, 5) - 210*std::pow(xi_2 + xi_3 - 1, 3)*std::pow(2*xi_1 + xi_2 + xi_3 - 1, 2) - 210*std::pow(xi_2 + xi_3 - 1, 2)*std::pow(2*xi_1 + xi_2 + xi_3 - 1, 3) + 315*(xi_2 + xi_3 - 1)*std::pow(2*xi_1 + xi_2 + xi_3 - 1, 4) + 63*std::pow(2*xi_1 + xi_2 + xi_3 - 1, 5))/((xi_3 - 1)*(xi_2 + xi_3 - 1)) + (1/32)*(308*xi_2*std::pow(xi_3 - 1, 2) + 101*std::pow(xi_3 - 1, 3) - 105*(xi_3 - 1)*std::pow(2*xi_2 + xi_3 - 1, 2))*(30*xi_1*std::pow(xi_2 + xi_3 - 1, 5) + 15*std::pow(xi_2 + xi_3 - 1, 6) - 70*std::pow(xi_2 + xi_3 - 1, 3)*std::pow(2*xi_1 + xi_2 + xi_3 - 1, 3) + 63*(xi_2 + xi_3 - 1)*std::pow(2*xi_1 + xi_2 + xi_3 - 1, 5))/((xi_3 - 1)*std::pow(xi_2 + xi_3 - 1, 2));
  117 => (1/16)*(16*xi_3 - 1)*(-30*std::pow(xi_2 + xi_3 - 1, 5) + 105*std::pow(xi_2 + xi_3 - 1, 4)*(4*xi_1 + 2*xi_2 + 2*xi_3 - 2) + 420*std::pow(xi_2 + xi_3 - 1, 3)*std::pow(2*xi_1 + xi_2 + xi_3 - 1, 2) - 1260*std::pow(xi_2 + xi_3 - 1, 2)*std::pow(2*xi_1 + xi_2 + xi_3 - 1, 3) - 315*(2*xi_2 + 2*xi_3 - 2)*std::pow(2*xi_1 + xi_2 + xi_3 - 1, 4) + 1386*std::pow(2*xi_1 + xi_2 + xi_3 - 1, 5));
  118 => -75/16*std::pow(xi_2 + xi_3 - 1, 6) + (1575/16)*std::pow(xi_2 + xi_3 - 1, 4)*std::pow(2*xi_1 + xi_2 + xi_3 - 1, 2) - 4725/16*std::pow(xi_2 + xi_3 - 1, 2)*std::pow(2*xi_1 + xi_2 + xi_3 - 1, 4) + (1/16)*(15*xi_2 + xi_3 - 1)*(-30*std::pow(xi_2 + xi_3 - 1, 5) + 105*std::pow(xi_2 + xi_3 - 1, 4)*(4*xi_1 + 2*xi_2 + 2*xi_3 - 2) + 420*std::pow(xi_2 + xi_3 - 1, 3)*std::pow(2*xi_1 + xi_2 + xi_3 - 1, 2) - 1260*std::pow(xi_2 + xi_3 - 1, 2)*std::pow(2*xi_1 + xi_2 + xi_3 - 1, 3) - 315*(2*xi_2 + 2*xi_3 - 2)*std::pow(2*xi_1 + xi_2 + xi_3 - 1, 4) + 1386*std::pow(2*xi_1 + xi_2 + xi_3 - 1, 5)) + (3465/16)*std::pow(2*xi_1 + xi_2 + xi_3 - 1, 6);
  119 => -(490*xi_1*std::pow(xi_2 + xi_3 - 1, 6) + 280*std::pow(xi_2 + xi_3 - 1, 7) - 945*std::pow(xi_2 + xi_3 - 1, 5)*std::pow(2*xi_1 + xi_2 + xi_3 - 1, 2) - 1575*std::pow(xi_2 + xi_3 - 1, 4)*std::pow(2*xi_1 + xi_2 + xi_3 - 1, 3) + 3465*std::pow(xi_2 + xi_3 - 1, 3)*std::pow(2*xi_1 + xi_2 + xi_3 - 1, 4) + 2079*std::pow(xi_2 + xi_3 - 1, 2)*std::pow(2*xi_1 + xi_2 + xi_3 - 1, 5) - 3003*(xi_2 + xi_3 - 1)*std::pow(2*xi_1 + xi_2 + xi_3 - 1, 6) - 429*std::pow(2*xi_1 + xi_2 + xi_3 - 1, 7))/(16*xi_2 + 16*xi_3 - 16) + 16*(70*xi_1*std::pow(xi_2 + xi_3 - 1, 7) + 35*std::pow(xi_2 + xi_3 - 1, 8) - 315*std::pow(xi_2 + xi_3 - 1, 5)*std::pow(2*xi_1 + xi_2 + xi_3 - 1, 3) + 693*std::pow(xi_2 + xi_3 - 1, 3)*std::pow(2*xi_1 + xi_2 + xi_3 - 1, 5) - 429*(xi_2 + xi_3 - 1)*std::pow(2*xi_1 + xi_2 + xi_3 - 1, 7))/std::pow(16*xi_2 + 16*xi_3 - 16, 2);
  120 => 0;
  121 => (189/4)*xi_3 + (5967/8)*std::pow(2*xi_3 - 1, 7) + (4641/4)*std::pow(2*xi_3 - 1, 6) - 819/8*std::pow(2*xi_3 - 1, 5) - 12285/16*std::pow(2*xi_3 - 1, 4) - 1365/8*std::pow(2*xi_3 - 1, 3) + (819/8)*std::pow(2*xi_3 - 1, 2) - 399/16;
  122 => -(4*std::pow(xi_3 - 1, 2) - 5*(xi_3 - 1)*(8*xi_2 + 4*xi_3 - 4))*(-156*xi_3 + 4641*std::pow(2*xi_3 - 1, 6) + 9282*std::pow(2*xi_3 - 1, 5) + 4095*std::pow(2*xi_3 - 1, 4) - 1820*std::pow(2*xi_3 - 1, 3) - 1365*std::pow(2*xi_3 - 1, 2) + 107)/(32*xi_3 - 32);
  123 => -(30*std::pow(xi_3 - 1, 3) + 15*std::pow(xi_3 - 1, 2)*(8*xi_2 + 4*xi_3 - 4) - 210*(xi_3 - 1)*std::pow(2*xi_2 + xi_3 - 1, 2))*(-210*xi_3 + 1071*std::pow(2*xi_3 - 1, 5) + 2380*std::pow(2*xi_3 - 1, 4) + 1610*std::pow(2*xi_3 - 1, 3) + 210*std::pow(2*xi_3 - 1, 2) + 87)/(32*xi_3 - 32);
  124 => (1/32)*(24*std::pow(xi_3 - 1, 3) - 42*std::pow(xi_3 - 1, 2)*(8*xi_2 + 4*xi_3 - 4) - 168*(xi_3 - 1)*std::pow(2*xi_2 + xi_3 - 1, 2) + 504*std::pow(2*xi_2 + xi_3 - 1, 3))*(600*xi_3 + 765*std::pow(2*xi_3 - 1, 4) + 1700*std::pow(2*xi_3 - 1, 3) + 1230*std::pow(2*xi_3 - 1, 2) - 291);
  125 => (1/16)*(252*xi_3 + 102*std::pow(2*xi_3 - 1, 3) + 204*std::pow(2*xi_3 - 1, 2) - 103)*(840*std::pow(-xi_3 + 1, 2)*std::pow(-2*xi_2 - xi_3 + 1, 3) - 2310*(-xi_3 + 1)*std::pow(-2*xi_2 - xi_3 + 1, 4) + 70*std::pow(xi_3 - 1, 5) + 70*std::pow(xi_3 - 1, 4)*(8*xi_2 + 4*xi_3 - 4) - 1260*std::pow(xi_3 - 1, 3)*std::pow(-2*xi_2 - xi_3 + 1, 2))/(xi_3 - 1);
  126 => -(476*xi_3 + 153*std::pow(2*xi_3 - 1, 2) - 149)*(60*std::pow(xi_3 - 1, 6) - 135*std::pow(xi_3 - 1, 5)*(8*xi_2 + 4*xi_3 - 4) - 1080*std::pow(xi_3 - 1, 4)*std::pow(2*xi_2 + xi_3 - 1, 2) + 3960*std::pow(xi_3 - 1, 3)*std::pow(2*xi_2 + xi_3 - 1, 3) + 1980*std::pow(xi_3 - 1, 2)*std::pow(2*xi_2 + xi_3 - 1, 4) - 5148*(xi_3 - 1)*std::pow(2*xi_2 + xi_3 - 1, 5))/(64*xi_3 - 64);
  127 => -(18*xi_3 - 1)*(630*std::pow(xi_3 - 1, 7) + 945*std::pow(xi_3 - 1, 6)*(8*xi_2 + 4*xi_3 - 4) - 20790*std::pow(xi_3 - 1, 5)*std::pow(2*xi_2 + xi_3 - 1, 2) - 27720*std::pow(xi_3 - 1, 4)*std::pow(2*xi_2 + xi_3 - 1, 3) + 90090*std::pow(xi_3 - 1, 3)*std::pow(2*xi_2 + xi_3 - 1, 4) + 36036*std::pow(xi_3 - 1, 2)*std::pow(2*xi_2 + xi_3 - 1, 5) - 90090*(xi_3 - 1)*std::pow(2*xi_2 + xi_3 - 1, 6))/(128*xi_3 - 128);
  128 => (385/32)*(-xi_3 + 1)*std::pow(xi_3 - 1, 5)*(8*xi_2 + 4*xi_3 - 4) + (1155/8)*(-xi_3 + 1)*std::pow(xi_3 - 1, 4)*std::pow(2*xi_2 + xi_3 - 1, 2) + (15015/8)*(-xi_3 + 1)*(xi_3 - 1)*std::pow(2*xi_2 + xi_3 - 1, 5) + (5005/8)*(-xi_3 + 1)*std::pow(2*xi_2 + xi_3 - 1, 6) + (35/8)*std::pow(xi_3 - 1, 7) + (5005/8)*std::pow(xi_3 - 1, 4)*std::pow(2*xi_2 + xi_3 - 1, 3) + (5005/8)*std::pow(xi_3 - 1, 3)*std::pow(2*xi_2 + xi_3 - 1, 4) + (12155/8)*std::pow(2*xi_2 + xi_3 - 1, 7);
  129 => (63/4)*xi_3 + (1989/8)*std::pow(2*xi_3 - 1, 7) + (1547/4)*std::pow(2*xi_3 - 1, 6) - 273/8*std::pow(2*xi_3 - 1, 5) - 4095/16*std::pow(2*xi_3 - 1, 4) - 455/8*std::pow(2*xi_3 - 1, 3) + (273/8)*std::pow(2*xi_3 - 1, 2) - 133/16;
  130 => (1/16)*(5*xi_2 + xi_3 - 1)*(-156*xi_3 + 4641*std::pow(2*xi_3 - 1, 6) + 9282*std::pow(2*xi_3 - 1, 5) + 4095*std::pow(2*xi_3 - 1, 4) - 1820*std::pow(2*xi_3 - 1, 3) - 1365*std::pow(2*xi_3 - 1, 2) + 107) + (5/16)*(2*xi_1 + xi_2 + xi_3 - 1)*(-156*xi_3 + 4641*std::pow(2*xi_3 - 1, 6) + 9282*std::pow(2*xi_3 - 1, 5) + 4095*std::pow(2*xi_3 - 1, 4) - 1820*std::pow(2*xi_3 - 1, 3) - 1365*std::pow(2*xi_3 - 1, 2) + 107);
  131 => -(36*std::pow(xi_3 - 1, 2) - 21*(xi_3 - 1)*(8*xi_2 + 4*xi_3 - 4))*(2*xi_1 + xi_2 + xi_3 - 1)*(-210*xi_3 + 1071*std::pow(2*xi_3 - 1, 5) + 2380*std::pow(2*xi_3 - 1, 4) + 1610*std::pow(2*xi_3 - 1, 3) + 210*std::pow(2*xi_3 - 1, 2) + 87)/(16*xi_3 - 16) - (36*xi_2*std::pow(xi_3 - 1, 2) + 17*std::pow(xi_3 - 1, 3) - 21*(xi_3 - 1)*std::pow(2*xi_2 + xi_3 - 1, 2))*(-210*xi_3 + 1071*std::pow(2*xi_3 - 1, 5) + 2380*std::pow(2*xi_3 - 1, 4) + 1610*std::pow(2*xi_3 - 1, 3) + 210*std::pow(2*xi_3 - 1, 2) + 87)/(16*xi_3 - 16);
  132 => (1/8)*(-21*(xi_3 - 1)*(8*xi_2 + 4*xi_3 - 4) + 126*std::pow(2*xi_2 + xi_3 - 1, 2))*(2*xi_1 + xi_2 + xi_3 - 1)*(600*xi_3 + 765*std::pow(2*xi_3 - 1, 4) + 1700*std::pow(2*xi_3 - 1, 3) + 1230*std::pow(2*xi_3 - 1, 2) - 291) + (1/8)*(2*std::pow(xi_3 - 1, 3) - 21*(xi_3 - 1)*std::pow(2*xi_2 + xi_3 - 1, 2) + 21*std::pow(2*xi_2 + xi_3 - 1, 3))*(600*xi_3 + 765*std::pow(2*xi_3 - 1, 4) + 1700*std::pow(2*xi_3 - 1, 3) + 1230*std::pow(2*xi_3 - 1, 2) - 291);
  133 => (1/8)*(2*xi_1 + xi_2 + xi_3 - 1)*(252*xi_3 + 102*std::pow(2*xi_3 - 1, 3) + 204*std::pow(2*xi_3 - 1, 2) - 103)*(88*std::pow(xi_3 - 1, 3) - 18*std::pow(xi_3 - 1, 2)*(8*xi_2 + 4*xi_3 - 4) - 1080*(xi_3 - 1)*std::pow(2*xi_2 + xi_3 - 1, 2) + 1320*std::pow(2*xi_2 + xi_3 - 1, 3)) + (1/8)*(252*xi_3 + 102*std::pow(2*xi_3 - 1, 3) + 204*std::pow(2*xi_3 - 1, 2) - 103)*(88*xi_2*std::pow(xi_3 - 1, 3) + 41*std::pow(xi_3 - 1, 4) - 18*std::pow(xi_3 - 1, 2)*std::pow(2*xi_2 + xi_3 - 1, 2) - 180*(xi_3 - 1)*std::pow(2*xi_2 + xi_3 - 1, 3) + 165*std::pow(2*xi_2 + xi_3 - 1, 4));
  134 => (1/128)*(476*xi_3 + 153*std::pow(2*xi_3 - 1, 2) - 149)*(2*xi_1 + xi_2 + xi_3 - 1)*(11880*std::pow(-xi_3 + 1, 2)*std::pow(-2*xi_2 - xi_3 + 1, 3) - 12870*(-xi_3 + 1)*std::pow(-2*xi_2 - xi_3 + 1, 4) - 90*std::pow(xi_3 - 1, 5) + 630*std::pow(xi_3 - 1, 4)*(8*xi_2 + 4*xi_3 - 4) - 1980*std::pow(xi_3 - 1, 3)*std::pow(-2*xi_2 - xi_3 + 1, 2))/(xi_3 - 1) + (1/128)*(476*xi_3 + 153*std::pow(2*xi_3 - 1, 2) - 149)*(-90*xi_2*std::pow(xi_3 - 1, 5) - 70*std::pow(-xi_3 + 1, 6) - 1485*std::pow(-xi_3 + 1, 2)*std::pow(-2*xi_2 - xi_3 + 1, 4) + 1287*(-xi_3 + 1)*std::pow(-2*xi_2 - xi_3 + 1, 5) + 630*std::pow(xi_3 - 1, 4)*std::pow(-2*xi_2 - xi_3 + 1, 2) + 330*std::pow(xi_3 - 1, 3)*std::pow(-2*xi_2 - xi_3 + 1, 3))/(xi_3 - 1);
  135 => -(18*xi_3 - 1)*(2*xi_1 + xi_2 + xi_3 - 1)*(780*std::pow(xi_3 - 1, 6) + 165*std::pow(xi_3 - 1, 5)*(8*xi_2 + 4*xi_3 - 4) - 22440*std::pow(xi_3 - 1, 4)*std::pow(2*xi_2 + xi_3 - 1, 2) + 17160*std::pow(xi_3 - 1, 3)*std::pow(2*xi_2 + xi_3 - 1, 3) + 60060*std::pow(xi_3 - 1, 2)*std::pow(2*xi_2 + xi_3 - 1, 4) - 60060*(xi_3 - 1)*std::pow(2*xi_2 + xi_3 - 1, 5))/(64*xi_3 - 64) - (18*xi_3 - 1)*(780*xi_2*std::pow(xi_3 - 1, 6) + 365*std::pow(xi_3 - 1, 7) + 165*std::pow(xi_3 - 1, 5)*std::pow(2*xi_2 + xi_3 - 1, 2) - 3740*std::pow(xi_3 - 1, 4)*std::pow(2*xi_2 + xi_3 - 1, 3) + 2145*std::pow(xi_3 - 1, 3)*std::pow(2*xi_2 + xi_3 - 1, 4) + 6006*std::pow(xi_3 - 1, 2)*std::pow(2*xi_2 + xi_3 - 1, 5) - 5005*(xi_3 - 1)*std::pow(2*xi_2 + xi_3 - 1, 6))/(64*xi_3 - 64);
  136 => (1/32)*(2*xi_1 + xi_2 + xi_3 - 1)*(-924*std::pow(-xi_3 + 1, 6)*(8*xi_2 + 4*xi_3 - 4) + 72072*std::pow(-xi_3 + 1, 2)*std::pow(-2*xi_2 - xi_3 + 1, 5) - 68068*(-xi_3 + 1)*std::pow(-2*xi_2 - xi_3 + 1, 6) + 154*std::pow(xi_3 - 1, 7) - 40040*std::pow(xi_3 - 1, 4)*std::pow(-2*xi_2 - xi_3 + 1, 3) - 30030*std::pow(xi_3 - 1, 3)*std::pow(-2*xi_2 - xi_3 + 1, 4))/(xi_3 - 1) + (1/32)*(154*xi_2*std::pow(xi_3 - 1, 7) - 924*std::pow(-xi_3 + 1, 6)*std::pow(-2*xi_2 - xi_3 + 1, 2) - 6006*std::pow(-xi_3 + 1, 2)*std::pow(-2*xi_2 - xi_3 + 1, 6) + 4862*(-xi_3 + 1)*std::pow(-2*xi_2 - xi_3 + 1, 7) + 98*std::pow(xi_3 - 1, 8) + 5005*std::pow(xi_3 - 1, 4)*std::pow(-2*xi_2 - xi_3 + 1, 4) + 3003*std::pow(xi_3 - 1, 3)*std::pow(-2*xi_2 - xi_3 + 1, 5))/(xi_3 - 1);
  137 => (1/32)*(12*xi_1 + 4*xi_2 + 4*xi_3 - 4)*(-156*xi_3 + 4641*std::pow(2*xi_3 - 1, 6) + 9282*std::pow(2*xi_3 - 1, 5) + 4095*std::pow(2*xi_3 - 1, 4) - 1820*std::pow(2*xi_3 - 1, 3) - 1365*std::pow(2*xi_3 - 1, 2) + 107);
  138 => (7/8)*(-std::pow(xi_2 + xi_3 - 1, 2) + 3*std::pow(2*xi_1 + xi_2 + xi_3 - 1, 2))*(-210*xi_3 + 1071*std::pow(2*xi_3 - 1, 5) + 2380*std::pow(2*xi_3 - 1, 4) + 1610*std::pow(2*xi_3 - 1, 3) + 210*std::pow(2*xi_3 - 1, 2) + 87) + (1/8)*(7*xi_2 + xi_3 - 1)*(12*xi_1 + 4*xi_2 + 4*xi_3 - 4)*(-210*xi_3 + 1071*std::pow(2*xi_3 - 1, 5) + 2380*std::pow(2*xi_3 - 1, 4) + 1610*std::pow(2*xi_3 - 1, 3) + 210*std::pow(2*xi_3 - 1, 2) + 87);
  139 => (20*std::pow(xi_3 - 1, 2) - 9*(xi_3 - 1)*(8*xi_2 + 4*xi_3 - 4))*(std::pow(xi_2 + xi_3 - 1, 2) - 3*std::pow(2*xi_1 + xi_2 + xi_3 - 1, 2))*(600*xi_3 + 765*std::pow(2*xi_3 - 1, 4) + 1700*std::pow(2*xi_3 - 1, 3) + 1230*std::pow(2*xi_3 - 1, 2) - 291)/(8*xi_3 - 8) + (20*xi_2*std::pow(xi_3 - 1, 2) + 8*std::pow(xi_3 - 1, 3) - 9*(xi_3 - 1)*std::pow(2*xi_2 + xi_3 - 1, 2))*(-12*xi_1 - 4*xi_2 - 4*xi_3 + 4)*(600*xi_3 + 765*std::pow(2*xi_3 - 1, 4) + 1700*std::pow(2*xi_3 - 1, 3) + 1230*std::pow(2*xi_3 - 1, 2) - 291)/(8*xi_3 - 8);
  140 => (1/16)*(-std::pow(xi_2 + xi_3 - 1, 2) + 3*std::pow(2*xi_1 + xi_2 + xi_3 - 1, 2))*(-225*std::pow(-xi_3 + 1, 2)*(8*xi_2 + 4*xi_3 - 4) - 990*(-xi_3 + 1)*std::pow(-2*xi_2 - xi_3 + 1, 2) + 126*std::pow(xi_3 - 1, 3))*(252*xi_3 + 102*std::pow(2*xi_3 - 1, 3) + 204*std::pow(2*xi_3 - 1, 2) - 103)/(xi_3 - 1) + (1/16)*(12*xi_1 + 4*xi_2 + 4*xi_3 - 4)*(252*xi_3 + 102*std::pow(2*xi_3 - 1, 3) + 204*std::pow(2*xi_3 - 1, 2) - 103)*(126*xi_2*std::pow(xi_3 - 1, 3) - 225*std::pow(-xi_3 + 1, 2)*std::pow(-2*xi_2 - xi_3 + 1, 2) + 165*(-xi_3 + 1)*std::pow(-2*xi_2 - xi_3 + 1, 3) + 68*std::pow(xi_3 - 1, 4))/(xi_3 - 1);
  141 => (1/128)*(-std::pow(xi_2 + xi_3 - 1, 2) + 3*std::pow(2*xi_1 + xi_2 + xi_3 - 1, 2))*(476*xi_3 + 153*std::pow(2*xi_3 - 1, 2) - 149)*(200*std::pow(xi_3 - 1, 3) + 330*std::pow(xi_3 - 1, 2)*(8*xi_2 + 4*xi_3 - 4) - 6600*(xi_3 - 1)*std::pow(2*xi_2 + xi_3 - 1, 2) + 5720*std::pow(2*xi_2 + xi_3 - 1, 3)) + (1/128)*(476*xi_3 + 153*std::pow(2*xi_3 - 1, 2) - 149)*(12*xi_1 + 4*xi_2 + 4*xi_3 - 4)*(200*xi_2*std::pow(xi_3 - 1, 3) + 71*std::pow(xi_3 - 1, 4) + 330*std::pow(xi_3 - 1, 2)*std::pow(2*xi_2 + xi_3 - 1, 2) - 1100*(xi_3 - 1)*std::pow(2*xi_2 + xi_3 - 1, 3) + 715*std::pow(2*xi_2 + xi_3 - 1, 4));
  142 => (18*xi_3 - 1)*(std::pow(xi_2 + xi_3 - 1, 2) - 3*std::pow(2*xi_1 + xi_2 + xi_3 - 1, 2))*(770*std::pow(xi_3 - 1, 5) - 990*std::pow(xi_3 - 1, 4)*(8*xi_2 + 4*xi_3 - 4) - 8580*std::pow(xi_3 - 1, 3)*std::pow(2*xi_2 + xi_3 - 1, 2) + 40040*std::pow(xi_3 - 1, 2)*std::pow(2*xi_2 + xi_3 - 1, 3) - 30030*(xi_3 - 1)*std::pow(2*xi_2 + xi_3 - 1, 4))/(64*xi_3 - 64) + (18*xi_3 - 1)*(-12*xi_1 - 4*xi_2 - 4*xi_3 + 4)*(770*xi_2*std::pow(xi_3 - 1, 5) + 386*std::pow(xi_3 - 1, 6) - 990*std::pow(xi_3 - 1, 4)*std::pow(2*xi_2 + xi_3 - 1, 2) - 1430*std::pow(xi_3 - 1, 3)*std::pow(2*xi_2 + xi_3 - 1, 3) + 5005*std::pow(xi_3 - 1, 2)*std::pow(2*xi_2 + xi_3 - 1, 4) - 3003*(xi_3 - 1)*std::pow(2*xi_2 + xi_3 - 1, 5))/(64*xi_3 - 64);
  143 => (1/32)*(std::pow(xi_2 + xi_3 - 1, 2) - 3*std::pow(2*xi_1 + xi_2 + xi_3 - 1, 2))*(96*std::pow(xi_3 - 1, 5) + 780*std::pow(xi_3 - 1, 4)*(8*xi_2 + 4*xi_3 - 4) - 10920*std::pow(xi_3 - 1, 3)*std::pow(2*xi_2 + xi_3 - 1, 2) - 10920*std::pow(xi_3 - 1, 2)*std::pow(2*xi_2 + xi_3 - 1, 3) + 54600*(xi_3 - 1)*std::pow(2*xi_2 + xi_3 - 1, 4) - 37128*std::pow(2*xi_2 + xi_3 - 1, 5)) + (1/32)*(-12*xi_1 - 4*xi_2 - 4*xi_3 + 4)*(96*xi_2*std::pow(xi_3 - 1, 5) + 23*std::pow(xi_3 - 1, 6) + 780*std::pow(xi_3 - 1, 4)*std::pow(2*xi_2 + xi_3 - 1, 2) - 1820*std::pow(xi_3 - 1, 3)*std::pow(2*xi_2 + xi_3 - 1, 3) - 1365*std::pow(xi_3 - 1, 2)*std::pow(2*xi_2 + xi_3 - 1, 4) + 5460*(xi_3 - 1)*std::pow(2*xi_2 + xi_3 - 1, 5) - 3094*std::pow(2*xi_2 + xi_3 - 1, 6));
  144 => -(18*xi_1*std::pow(xi_2 + xi_3 - 1, 2) + 12*std::pow(xi_2 + xi_3 - 1, 3) - 15*(xi_2 + xi_3 - 1)*std::pow(2*xi_1 + xi_2 + xi_3 - 1, 2) - 5*std::pow(2*xi_1 + xi_2 + xi_3 - 1, 3))*(-210*xi_3 + 1071*std::pow(2*xi_3 - 1, 5) + 2380*std::pow(2*xi_3 - 1, 4) + 1610*std::pow(2*xi_3 - 1, 3) + 210*std::pow(2*xi_3 - 1, 2) + 87)/(8*xi_2 + 8*xi_3 - 8) + 8*(6*xi_1*std::pow(xi_2 + xi_3 - 1, 3) + 3*std::pow(xi_2 + xi_3 - 1, 4) - 5*(xi_2 + xi_3 - 1)*std::pow(2*xi_1 + xi_2 + xi_3 - 1, 3))*(-210*xi_3 + 1071*std::pow(2*xi_3 - 1, 5) + 2380*std::pow(2*xi_3 - 1, 4) + 1610*std::pow(2*xi_3 - 1, 3) + 210*std::pow(2*xi_3 - 1, 2) + 87)/std::pow(8*xi_2 + 8*xi_3 - 8, 2);
  145 => (1/8)*(9*xi_2 + xi_3 - 1)*(18*xi_1*std::pow(xi_2 + xi_3 - 1, 2) + 15*(-xi_2 - xi_3 + 1)*std::pow(2*xi_1 + xi_2 + xi_3 - 1, 2) + 12*std::pow(xi_2 + xi_3 - 1, 3) - 5*std::pow(2*xi_1 + xi_2 + xi_3 - 1, 3))*(600*xi_3 + 765*std::pow(2*xi_3 - 1, 4) + 1700*std::pow(2*xi_3 - 1, 3) + 1230*std::pow(2*xi_3 - 1, 2) - 291)/(-xi_2 - xi_3 + 1) + (9/8)*(6*xi_1*std::pow(xi_2 + xi_3 - 1, 3) + 5*(-xi_2 - xi_3 + 1)*std::pow(2*xi_1 + xi_2 + xi_3 - 1, 3) + 3*std::pow(xi_2 + xi_3 - 1, 4))*(600*xi_3 + 765*std::pow(2*xi_3 - 1, 4) + 1700*std::pow(2*xi_3 - 1, 3) + 1230*std::pow(2*xi_3 - 1, 2) - 291)/(-xi_2 - xi_3 + 1) + (1/8)*(9*xi_2 + xi_3 - 1)*(6*xi_1*std::pow(xi_2 + xi_3 - 1, 3) + 5*(-xi_2 - xi_3 + 1)*std::pow(2*xi_1 + xi_2 + xi_3 - 1, 3) + 3*std::pow(xi_2 + xi_3 - 1, 4))*(600*xi_3 + 765*std::pow(2*xi_3 - 1, 4) + 1700*std::pow(2*xi_3 - 1, 3) + 1230*std::pow(2*xi_3 - 1, 2) - 291)/std::pow(-xi_2 - xi_3 + 1, 2);
  146 => (1/8)*(55*(-xi_3 + 1)*(8*xi_2 + 4*xi_3 - 4) + 140*std::pow(xi_3 - 1, 2))*(6*xi_1*std::pow(xi_2 + xi_3 - 1, 3) + 5*(-xi_2 - xi_3 + 1)*std::pow(2*xi_1 + xi_2 + xi_3 - 1, 3) + 3*std::pow(xi_2 + xi_3 - 1, 4))*(252*xi_3 + 102*std::pow(2*xi_3 - 1, 3) + 204*std::pow(2*xi_3 - 1, 2) - 103)/((xi_3 - 1)*(xi_2 + xi_3 - 1)) + (1/8)*(140*xi_2*std::pow(xi_3 - 1, 2) + 55*(-xi_3 + 1)*std::pow(-2*xi_2 - xi_3 + 1, 2) + 51*std::pow(xi_3 - 1, 3))*(252*xi_3 + 102*std::pow(2*xi_3 - 1, 3) + 204*std::pow(2*xi_3 - 1, 2) - 103)*(18*xi_1*std::pow(xi_2 + xi_3 - 1, 2) + 15*(-xi_2 - xi_3 + 1)*std::pow(2*xi_1 + xi_2 + xi_3 - 1, 2) + 12*std::pow(xi_2 + xi_3 - 1, 3) - 5*std::pow(2*xi_1 + xi_2 + xi_3 - 1, 3))/((xi_3 - 1)*(xi_2 + xi_3 - 1)) - 1/8*(6*xi_1*std::pow(xi_2 + xi_3 - 1, 3) + 5*(-xi_2 - xi_3 + 1)*std::pow(2*xi_1 + xi_2 + xi_3 - 1, 3) + 3*std::pow(xi_2 + xi_3 - 1, 4))*(140*xi_2*std::pow(xi_3 - 1, 2) + 55*(-xi_3 + 1)*std::pow(-2*xi_2 - xi_3 + 1, 2) + 51*std::pow(xi_3 - 1, 3))*(252*xi_3 + 102*std::pow(2*xi_3 - 1, 3) + 204*std::pow(2*xi_3 - 1, 2) - 103)/((xi_3 - 1)*std::pow(xi_2 + xi_3 - 1, 2));
  147 => -(476*xi_3 + 153*std::pow(2*xi_3 - 1, 2) - 149)*(6*xi_1*std::pow(xi_2 + xi_3 - 1, 3) + 3*std::pow(xi_2 + xi_3 - 1, 4) - 5*(xi_2 + xi_3 - 1)*std::pow(2*xi_1 + xi_2 + xi_3 - 1, 3))*(198*std::pow(xi_3 - 1, 2) - 231*(xi_3 - 1)*(8*xi_2 + 4*xi_3 - 4) + 858*std::pow(2*xi_2 + xi_3 - 1, 2))/(32*xi_2 + 32*xi_3 - 32) - (476*xi_3 + 153*std::pow(2*xi_3 - 1, 2) - 149)*(18*xi_1*std::pow(xi_2 + xi_3 - 1, 2) + 12*std::pow(xi_2 + xi_3 - 1, 3) - 15*(xi_2 + xi_3 - 1)*std::pow(2*xi_1 + xi_2 + xi_3 - 1, 2) - 5*std::pow(2*xi_1 + xi_2 + xi_3 - 1, 3))*(198*xi_2*std::pow(xi_3 - 1, 2) + 92*std::pow(xi_3 - 1, 3) - 231*(xi_3 - 1)*std::pow(2*xi_2 + xi_3 - 1, 2) + 143*std::pow(2*xi_2 + xi_3 - 1, 3))/(32*xi_2 + 32*xi_3 - 32) + 32*(476*xi_3 + 153*std::pow(2*xi_3 - 1, 2) - 149)*(6*xi_1*std::pow(xi_2 + xi_3 - 1, 3) + 3*std::pow(xi_2 + xi_3 - 1, 4) - 5*(xi_2 + xi_3 - 1)*std::pow(2*xi_1 + xi_2 + xi_3 - 1, 3))*(198*xi_2*std::pow(xi_3 - 1, 2) + 92*std::pow(xi_3 - 1, 3) - 231*(xi_3 - 1)*std::pow(2*xi_2 + xi_3 - 1, 2) + 143*std::pow(2*xi_2 + xi_3 - 1, 3))/std::pow(32*xi_2 + 32*xi_3 - 32, 2);
  148 => (1/32)*(18*xi_3 - 1)*(6*xi_1*std::pow(xi_2 + xi_3 - 1, 3) + 5*(-xi_2 - xi_3 + 1)*std::pow(2*xi_1 + xi_2 + xi_3 - 1, 3) + 3*std::pow(xi_2 + xi_3 - 1, 4))*(-168*std::pow(xi_3 - 1, 3) + 1326*std::pow(xi_3 - 1, 2)*(8*xi_2 + 4*xi_3 - 4) - 15288*(xi_3 - 1)*std::pow(2*xi_2 + xi_3 - 1, 2) + 10920*std::pow(2*xi_2 + xi_3 - 1, 3))/(-xi_2 - xi_3 + 1) + (1/32)*(18*xi_3 - 1)*(18*xi_1*std::pow(xi_2 + xi_3 - 1, 2) + 15*(-xi_2 - xi_3 + 1)*std::pow(2*xi_1 + xi_2 + xi_3 - 1, 2) + 12*std::pow(xi_2 + xi_3 - 1, 3) - 5*std::pow(2*xi_1 + xi_2 + xi_3 - 1, 3))*(-168*xi_2*std::pow(xi_3 - 1, 3) - 127*std::pow(xi_3 - 1, 4) + 1326*std::pow(xi_3 - 1, 2)*std::pow(2*xi_2 + xi_3 - 1, 2) - 2548*(xi_3 - 1)*std::pow(2*xi_2 + xi_3 - 1, 3) + 1365*std::pow(2*xi_2 + xi_3 - 1, 4))/(-xi_2 - xi_3 + 1) + (1/32)*(18*xi_3 - 1)*(6*xi_1*std::pow(xi_2 + xi_3 - 1, 3) + 5*(-xi_2 - xi_3 + 1)*std::pow(2*xi_1 + xi_2 + xi_3 - 1, 3) + 3*std::pow(xi_2 + xi_3 - 1, 4))*(-168*xi_2*std::pow(xi_3 - 1, 3) - 127*std::pow(xi_3 - 1, 4) + 1326*std::pow(xi_3 - 1, 2)*std::pow(2*xi_2 + xi_3 - 1, 2) - 2548*(xi_3 - 1)*std::pow(2*xi_2 + xi_3 - 1, 3) + 1365*std::pow(2*xi_2 + xi_3 - 1, 4))/std::pow(-xi_2 - xi_3 + 1, 2);
  149 => (1/16)*(6*xi_1*std::pow(xi_2 + xi_3 - 1, 3) + 5*(-xi_2 - xi_3 + 1)*std::pow(2*xi_1 + xi_2 + xi_3 - 1, 3) + 3*std::pow(xi_2 + xi_3 - 1, 4))*(10920*std::pow(-xi_3 + 1, 3)*std::pow(2*xi_2 + xi_3 - 1, 2) + 15470*(-xi_3 + 1)*std::pow(2*xi_2 + xi_3 - 1, 4) + 390*std::pow(xi_3 - 1, 5) + 25480*std::pow(xi_3 - 1, 2)*std::pow(2*xi_2 + xi_3 - 1, 3))/((xi_3 - 1)*(xi_2 + xi_3 - 1)) + (1/16)*(18*xi_1*std::pow(xi_2 + xi_3 - 1, 2) + 15*(-xi_2 - xi_3 + 1)*std::pow(2*xi_1 + xi_2 + xi_3 - 1, 2) + 12*std::pow(xi_2 + xi_3 - 1, 3) - 5*std::pow(2*xi_1 + xi_2 + xi_3 - 1, 3))*(390*xi_2*std::pow(xi_3 - 1, 5) + 1820*std::pow(-xi_3 + 1, 3)*std::pow(2*xi_2 + xi_3 - 1, 3) + 1547*(-xi_3 + 1)*std::pow(2*xi_2 + xi_3 - 1, 5) + 174*std::pow(xi_3 - 1, 6) + 3185*std::pow(xi_3 - 1, 2)*std::pow(2*xi_2 + xi_3 - 1, 4))/((xi_3 - 1)*(xi_2 + xi_3 - 1)) - 1/16*(6*xi_1*std::pow(xi_2 + xi_3 - 1, 3) + 5*(-xi_2 - xi_3 + 1)*std::pow(2*xi_1 + xi_2 + xi_3 - 1, 3) + 3*std::pow(xi_2 + xi_3 - 1, 4))*(390*xi_2*std::pow(xi_3 - 1, 5) + 1820*std::pow(-xi_3 + 1, 3)*std::pow(2*xi_2 + xi_3 - 1, 3) + 1547*(-xi_3 + 1)*std::pow(2*xi_2 + xi_3 - 1, 5) + 174*std::pow(xi_3 - 1, 6) + 3185*std::pow(xi_3 - 1, 2)*std::pow(2*xi_2 + xi_3 - 1, 4))/((xi_3 - 1)*std::pow(xi_2 + xi_3 - 1, 2));
  150 => (1/32)*(12*std::pow(xi_2 + xi_3 - 1, 3) - 30*std::pow(xi_2 + xi_3 - 1, 2)*(4*xi_1 + 2*xi_2 + 2*xi_3 - 2) - 30*(2*xi_2 + 2*xi_3 - 2)*std::pow(2*xi_1 + xi_2 + xi_3 - 1, 2) + 140*std::pow(2*xi_1 + xi_2 + xi_3 - 1, 3))*(600*xi_3 + 765*std::pow(2*xi_3 - 1, 4) + 1700*std::pow(2*xi_3 - 1, 3) + 1230*std::pow(2*xi_3 - 1, 2) - 291);
  151 => (1/8)*(11*xi_2 + xi_3 - 1)*(252*xi_3 + 102*std::pow(2*xi_3 - 1, 3) + 204*std::pow(2*xi_3 - 1, 2) - 103)*(12*std::pow(xi_2 + xi_3 - 1, 3) - 30*std::pow(xi_2 + xi_3 - 1, 2)*(4*xi_1 + 2*xi_2 + 2*xi_3 - 2) - 30*(2*xi_2 + 2*xi_3 - 2)*std::pow(2*xi_1 + xi_2 + xi_3 - 1, 2) + 140*std::pow(2*xi_1 + xi_2 + xi_3 - 1, 3)) + (11/8)*(3*std::pow(xi_2 + xi_3 - 1, 4) - 30*std::pow(xi_2 + xi_3 - 1, 2)*std::pow(2*xi_1 + xi_2 + xi_3 - 1, 2) + 35*std::pow(2*xi_1 + xi_2 + xi_3 - 1, 4))*(252*xi_3 + 102*std::pow(2*xi_3 - 1, 3) + 204*std::pow(2*xi_3 - 1, 2) - 103);
  152 => -(108*std::pow(xi_3 - 1, 2) - 39*(xi_3 - 1)*(8*xi_2 + 4*xi_3 - 4))*(476*xi_3 + 153*std::pow(2*xi_3 - 1, 2) - 149)*(3*std::pow(xi_2 + xi_3 - 1, 4) - 30*std::pow(xi_2 + xi_3 - 1, 2)*std::pow(2*xi_1 + xi_2 + xi_3 - 1, 2) + 35*std::pow(2*xi_1 + xi_2 + xi_3 - 1, 4))/(64*xi_3 - 64) - (476*xi_3 + 153*std::pow(2*xi_3 - 1, 2) - 149)*(108*xi_2*std::pow(xi_3 - 1, 2) + 37*std::pow(xi_3 - 1, 3) - 39*(xi_3 - 1)*std::pow(2*xi_2 + xi_3 - 1, 2))*(12*std::pow(xi_2 + xi_3 - 1, 3) - 30*std::pow(xi_2 + xi_3 - 1, 2)*(4*xi_1 + 2*xi_2 + 2*xi_3 - 2) - 30*(2*xi_2 + 2*xi_3 - 2)*std::pow(2*xi_1 + xi_2 + xi_3 - 1, 2) + 140*std::pow(2*xi_1 + xi_2 + xi_3 - 1, 3))/(64*xi_3 - 64);
  153 => (1/64)*(18*xi_3 - 1)*(-819*std::pow(-xi_3 + 1, 2)*(8*xi_2 + 4*xi_3 - 4) - 2730*(-xi_3 + 1)*std::pow(-2*xi_2 - xi_3 + 1, 2) + 858*std::pow(xi_3 - 1, 3))*(3*std::pow(xi_2 + xi_3 - 1, 4) - 30*std::pow(xi_2 + xi_3 - 1, 2)*std::pow(2*xi_1 + xi_2 + xi_3 - 1, 2) + 35*std::pow(2*xi_1 + xi_2 + xi_3 - 1, 4))/(xi_3 - 1) + (1/64)*(18*xi_3 - 1)*(858*xi_2*std::pow(xi_3 - 1, 3) - 819*std::pow(-xi_3 + 1, 2)*std::pow(-2*xi_2 - xi_3 + 1, 2) + 455*(-xi_3 + 1)*std::pow(-2*xi_2 - xi_3 + 1, 3) + 372*std::pow(xi_3 - 1, 4))*(12*std::pow(xi_2 + xi_3 - 1, 3) - 30*std::pow(xi_2 + xi_3 - 1, 2)*(4*xi_1 + 2*xi_2 + 2*xi_3 - 2) - 30*(2*xi_2 + 2*xi_3 - 2)*std::pow(2*xi_1 + xi_2 + xi_3 - 1, 2) + 140*std::pow(2*xi_1 + xi_2 + xi_3 - 1, 3))/(xi_3 - 1);
  154 => (1/32)*(3*std::pow(xi_2 + xi_3 - 1, 4) - 30*std::pow(xi_2 + xi_3 - 1, 2)*std::pow(2*xi_1 + xi_2 + xi_3 - 1, 2) + 35*std::pow(2*xi_1 + xi_2 + xi_3 - 1, 4))*(-336*std::pow(xi_3 - 1, 3) + 840*std::pow(xi_3 - 1, 2)*(8*xi_2 + 4*xi_3 - 4) - 7560*(xi_3 - 1)*std::pow(2*xi_2 + xi_3 - 1, 2) + 4760*std::pow(2*xi_2 + xi_3 - 1, 3)) + (1/32)*(12*std::pow(xi_2 + xi_3 - 1, 3) - 30*std::pow(xi_2 + xi_3 - 1, 2)*(4*xi_1 + 2*xi_2 + 2*xi_3 - 2) - 30*(2*xi_2 + 2*xi_3 - 2)*std::pow(2*xi_1 + xi_2 + xi_3 - 1, 2) + 140*std::pow(2*xi_1 + xi_2 + xi_3 - 1, 3))*(-336*xi_2*std::pow(xi_3 - 1, 3) - 171*std::pow(xi_3 - 1, 4) + 840*std::pow(xi_3 - 1, 2)*std::pow(2*xi_2 + xi_3 - 1, 2) - 1260*(xi_3 - 1)*std::pow(2*xi_2 + xi_3 - 1, 3) + 595*std::pow(2*xi_2 + xi_3 - 1, 4));
  155 => (1/8)*(252*xi_3 + 102*std::pow(2*xi_3 - 1, 3) + 204*std::pow(2*xi_3 - 1, 2) - 103)*(150*xi_1*std::pow(xi_2 + xi_3 - 1, 4) - 315*(-xi_2 - xi_3 + 1)*std::pow(-2*xi_1 - xi_2 - xi_3 + 1, 4) + 90*std::pow(xi_2 + xi_3 - 1, 5) - 210*std::pow(xi_2 + xi_3 - 1, 3)*std::pow(-2*xi_1 - xi_2 - xi_3 + 1, 2) + 210*std::pow(xi_2 + xi_3 - 1, 2)*std::pow(-2*xi_1 - xi_2 - xi_3 + 1, 3) - 63*std::pow(-2*xi_1 - xi_2 - xi_3 + 1, 5))/(xi_2 + xi_3 - 1) - 1/8*(252*xi_3 + 102*std::pow(2*xi_3 - 1, 3) + 204*std::pow(2*xi_3 - 1, 2) - 103)*(30*xi_1*std::pow(xi_2 + xi_3 - 1, 5) + 63*(-xi_2 - xi_3 + 1)*std::pow(-2*xi_1 - xi_2 - xi_3 + 1, 5) + 15*std::pow(xi_2 + xi_3 - 1, 6) + 70*std::pow(xi_2 + xi_3 - 1, 3)*std::pow(-2*xi_1 - xi_2 - xi_3 + 1, 3))/std::pow(xi_2 + xi_3 - 1, 2);
  156 => (1/32)*(13*xi_2 + xi_3 - 1)*(476*xi_3 + 153*std::pow(2*xi_3 - 1, 2) - 149)*(150*xi_1*std::pow(xi_2 + xi_3 - 1, 4) - 315*(-xi_2 - xi_3 + 1)*std::pow(-2*xi_1 - xi_2 - xi_3 + 1, 4) + 90*std::pow(xi_2 + xi_3 - 1, 5) - 210*std::pow(xi_2 + xi_3 - 1, 3)*std::pow(-2*xi_1 - xi_2 - xi_3 + 1, 2) + 210*std::pow(xi_2 + xi_3 - 1, 2)*std::pow(-2*xi_1 - xi_2 - xi_3 + 1, 3) - 63*std::pow(-2*xi_1 - xi_2 - xi_3 + 1, 5))/(xi_2 + xi_3 - 1) + (13/32)*(476*xi_3 + 153*std::pow(2*xi_3 - 1, 2) - 149)*(30*xi_1*std::pow(xi_2 + xi_3 - 1, 5) + 63*(-xi_2 - xi_3 + 1)*std::pow(-2*xi_1 - xi_2 - xi_3 + 1, 5) + 15*std::pow(xi_2 + xi_3 - 1, 6) + 70*std::pow(xi_2 + xi_3 - 1, 3)*std::pow(-2*xi_1 - xi_2 - xi_3 + 1, 3))/(xi_2 + xi_3 - 1) - 1/32*(13*xi_2 + xi_3 - 1)*(476*xi_3 + 153*std::pow(2*xi_3 - 1, 2) - 149)*(30*xi_1*std::pow(xi_2 + xi_3 - 1, 5) + 63*(-xi_2 - xi_3 + 1)*std::pow(-2*xi_1 - xi_2 - xi_3 + 1, 5) + 15*std::pow(xi_2 + xi_3 - 1, 6) + 70*std::pow(xi_2 + xi_3 - 1, 3)*std::pow(-2*xi_1 - xi_2 - xi_3 + 1, 3))/std::pow(xi_2 + xi_3 - 1, 2);
  157 => -1/32*(18*xi_3 - 1)*(308*std::pow(xi_3 - 1, 2) - 105*(xi_3 - 1)*(8*xi_2 + 4*xi_3 - 4))*(30*xi_1*std::pow(xi_2 + xi_3 - 1, 5) + 15*std::pow(xi_2 + xi_3 - 1, 6) - 70*std::pow(xi_2 + xi_3 - 1, 3)*std::pow(2*xi_1 + xi_2 + xi_3 - 1, 3) + 63*(xi_2 + xi_3 - 1)*std::pow(2*xi_1 + xi_2 + xi_3 - 1, 5))/((xi_3 - 1)*(xi_2 + xi_3 - 1)) - 1/32*(18*xi_3 - 1)*(308*xi_2*std::pow(xi_3 - 1, 2) + 101*std::pow(xi_3 - 1, 3) - 105*(xi_3 - 1)*std::pow(2*xi_2 + xi_3 - 1, 2))*(150*xi_1*std::pow(xi_2 + xi_3 - 1, 4) + 90*std::pow(xi_2 + xi_3 - 1, 5) - 210*std::pow(xi_2 + xi_3 - 1, 3)*std::pow(2*xi_1 + xi_2 + xi_3 - 1, 2) - 210*std::pow(xi_2 + xi_3 - 1, 2)*std::pow(2*xi_1 + xi_2 + xi_3 - 1, 3) + 315*(xi_2 + xi_3 - 1)*std::pow(2*xi_1 + xi_2 + xi_3 - 1, 4) + 63*std::pow(2*xi_1 + xi_2 + xi_3 - 1, 5))/((xi_3 - 1)*(xi_2 + xi_3 - 1)) + (1/32)*(18*xi_3 - 1)*(308*xi_2*std::pow(xi_3 - 1, 2) + 101*std::pow(xi_3 - 1, 3) - 105*(xi_3 - 1)*std::pow(2*xi_2 + xi_3 - 1, 2))*(30*xi_1*std::pow(xi_2 + xi_3 - 1, 5) + 15*std::pow(xi_2 + xi_3 - 1, 6) - 70*std::pow(xi_2 + xi_3 - 1, 3)*std::pow(2*xi_1 + xi_2 + xi_3 - 1, 3) + 63*(xi_2 + xi_3 - 1)*std::pow(2*xi_1 + xi_2 + xi_3 - 1, 5))/((xi_3 - 1)*std::pow(xi_2 + xi_3 - 1, 2));
  158 => (1/8)*(195*std::pow(xi_3 - 1, 2) - 165*(xi_3 - 1)*(8*xi_2 + 4*xi_3 - 4) + 510*std::pow(-2*xi_2 - xi_3 + 1, 2))*(30*xi_1*std::pow(xi_2 + xi_3 - 1, 5) + 63*(-xi_2 - xi_3 + 1)*std::pow(-2*xi_1 - xi_2 - xi_3 + 1, 5) + 15*std::pow(xi_2 + xi_3 - 1, 6) + 70*std::pow(xi_2 + xi_3 - 1, 3)*std::pow(-2*xi_1 - xi_2 - xi_3 + 1, 3))/(xi_2 + xi_3 - 1) + (1/8)*(195*xi_2*std::pow(xi_3 - 1, 2) + 81*std::pow(xi_3 - 1, 3) - 165*(xi_3 - 1)*std::pow(-2*xi_2 - xi_3 + 1, 2) - 85*std::pow(-2*xi_2 - xi_3 + 1, 3))*(150*xi_1*std::pow(xi_2 + xi_3 - 1, 4) - 315*(-xi_2 - xi_3 + 1)*std::pow(-2*xi_1 - xi_2 - xi_3 + 1, 4) + 90*std::pow(xi_2 + xi_3 - 1, 5) - 210*std::pow(xi_2 + xi_3 - 1, 3)*std::pow(-2*xi_1 - xi_2 - xi_3 + 1, 2) + 210*std::pow(xi_2 + xi_3 - 1, 2)*std::pow(-2*xi_1 - xi_2 - xi_3 + 1, 3) - 63*std::pow(-2*xi_1 - xi_2 - xi_3 + 1, 5))/(xi_2 + xi_3 - 1) - 1/8*(30*xi_1*std::pow(xi_2 + xi_3 - 1, 5) + 63*(-xi_2 - xi_3 + 1)*std::pow(-2*xi_1 - xi_2 - xi_3 + 1, 5) + 15*std::pow(xi_2 + xi_3 - 1, 6) + 70*std::pow(xi_2 + xi_3 - 1, 3)*std::pow(-2*xi_1 - xi_2 - xi_3 + 1, 3))*(195*xi_2*std::pow(xi_3 - 1, 2) + 81*std::pow(xi_3 - 1, 3) - 165*(xi_3 - 1)*std::pow(-2*xi_2 - xi_3 + 1, 2) - 85*std::pow(-2*xi_2 - xi_3 + 1, 3))/std::pow(xi_2 + xi_3 - 1, 2);
  159 => (1/64)*(476*xi_3 + 153*std::pow(2*xi_3 - 1, 2) - 149)*(-30*std::pow(xi_2 + xi_3 - 1, 5) + 105*std::pow(xi_2 + xi_3 - 1, 4)*(4*xi_1 + 2*xi_2 + 2*xi_3 - 2) + 420*std::pow(xi_2 + xi_3 - 1, 3)*std::pow(2*xi_1 + xi_2 + xi_3 - 1, 2) - 1260*std::pow(xi_2 + xi_3 - 1, 2)*std::pow(2*xi_1 + xi_2 + xi_3 - 1, 3) - 315*(2*xi_2 + 2*xi_3 - 2)*std::pow(2*xi_1 + xi_2 + xi_3 - 1, 4) + 1386*std::pow(2*xi_1 + xi_2 + xi_3 - 1, 5));
  160 => (1/16)*(18*xi_3 - 1)*(15*xi_2 + xi_3 - 1)*(-30*std::pow(xi_2 + xi_3 - 1, 5) + 105*std::pow(xi_2 + xi_3 - 1, 4)*(4*xi_1 + 2*xi_2 + 2*xi_3 - 2) + 420*std::pow(xi_2 + xi_3 - 1, 3)*std::pow(2*xi_1 + xi_2 + xi_3 - 1, 2) - 1260*std::pow(xi_2 + xi_3 - 1, 2)*std::pow(2*xi_1 + xi_2 + xi_3 - 1, 3) - 315*(2*xi_2 + 2*xi_3 - 2)*std::pow(2*xi_1 + xi_2 + xi_3 - 1, 4) + 1386*std::pow(2*xi_1 + xi_2 + xi_3 - 1, 5)) + (15/16)*(18*xi_3 - 1)*(-5*std::pow(xi_2 + xi_3 - 1, 6) + 105*std::pow(xi_2 + xi_3 - 1, 4)*std::pow(2*xi_1 + xi_2 + xi_3 - 1, 2) - 315*std::pow(xi_2 + xi_3 - 1, 2)*std::pow(2*xi_1 + xi_2 + xi_3 - 1, 4) + 231*std::pow(2*xi_1 + xi_2 + xi_3 - 1, 6));
  161 => (104*std::pow(xi_3 - 1, 2) - 34*(xi_3 - 1)*(8*xi_2 + 4*xi_3 - 4))*(5*std::pow(xi_2 + xi_3 - 1, 6) - 105*std::pow(xi_2 + xi_3 - 1, 4)*std::pow(2*xi_1 + xi_2 + xi_3 - 1, 2) + 315*std::pow(xi_2 + xi_3 - 1, 2)*std::pow(2*xi_1 + xi_2 + xi_3 - 1, 4) - 231*std::pow(2*xi_1 + xi_2 + xi_3 - 1, 6))/(16*xi_3 - 16) + (104*xi_2*std::pow(xi_3 - 1, 2) + 33*std::pow(xi_3 - 1, 3) - 34*(xi_3 - 1)*std::pow(2*xi_2 + xi_3 - 1, 2))*(30*std::pow(xi_2 + xi_3 - 1, 5) - 105*std::pow(xi_2 + xi_3 - 1, 4)*(4*xi_1 + 2*xi_2 + 2*xi_3 - 2) - 420*std::pow(xi_2 + xi_3 - 1, 3)*std::pow(2*xi_1 + xi_2 + xi_3 - 1, 2) + 1260*std::pow(xi_2 + xi_3 - 1, 2)*std::pow(2*xi_1 + xi_2 + xi_3 - 1, 3) + 315*(2*xi_2 + 2*xi_3 - 2)*std::pow(2*xi_1 + xi_2 + xi_3 - 1, 4) - 1386*std::pow(2*xi_1 + xi_2 + xi_3 - 1, 5))/(16*xi_3 - 16);
  162 => -(18*xi_3 - 1)*(490*xi_1*std::pow(xi_2 + xi_3 - 1, 6) + 280*std::pow(xi_2 + xi_3 - 1, 7) - 945*std::pow(xi_2 + xi_3 - 1, 5)*std::pow(2*xi_1 + xi_2 + xi_3 - 1, 2) - 1575*std::pow(xi_2 + xi_3 - 1, 4)*std::pow(2*xi_1 + xi_2 + xi_3 - 1, 3) + 3465*std::pow(xi_2 + xi_3 - 1, 3)*std::pow(2*xi_1 + xi_2 + xi_3 - 1, 4) + 2079*std::pow(xi_2 + xi_3 - 1, 2)*std::pow(2*xi_1 + xi_2 + xi_3 - 1, 5) - 3003*(xi_2 + xi_3 - 1)*std::pow(2*xi_1 + xi_2 + xi_3 - 1, 6) - 429*std::pow(2*xi_1 + xi_2 + xi_3 - 1, 7))/(16*xi_2 + 16*xi_3 - 16) + 16*(18*xi_3 - 1)*(70*xi_1*std::pow(xi_2 + xi_3 - 1, 7) + 35*std::pow(xi_2 + xi_3 - 1, 8) - 315*std::pow(xi_2 + xi_3 - 1, 5)*std::pow(2*xi_1 + xi_2 + xi_3 - 1, 3) + 693*std::pow(xi_2 + xi_3 - 1, 3)*std::pow(2*xi_1 + xi_2 + xi_3 - 1, 5) - 429*(xi_2 + xi_3 - 1)*std::pow(2*xi_1 + xi_2 + xi_3 - 1, 7))/std::pow(16*xi_2 + 16*xi_3 - 16, 2);
  163 => -(17*xi_2 + xi_3 - 1)*(490*xi_1*std::pow(xi_2 + xi_3 - 1, 6) + 280*std::pow(xi_2 + xi_3 - 1, 7) - 945*std::pow(xi_2 + xi_3 - 1, 5)*std::pow(2*xi_1 + xi_2 + xi_3 - 1, 2) - 1575*std::pow(xi_2 + xi_3 - 1, 4)*std::pow(2*xi_1 + xi_2 + xi_3 - 1, 3) + 3465*std::pow(xi_2 + xi_3 - 1, 3)*std::pow(2*xi_1 + xi_2 + xi_3 - 1, 4) + 2079*std::pow(xi_2 + xi_3 - 1, 2)*std::pow(2*xi_1 + xi_2 + xi_3 - 1, 5) - 3003*(xi_2 + xi_3 - 1)*std::pow(2*xi_1 + xi_2 + xi_3 - 1, 6) - 429*std::pow(2*xi_1 + xi_2 + xi_3 - 1, 7))/(16*xi_2 + 16*xi_3 - 16) - 17*(70*xi_1*std::pow(xi_2 + xi_3 - 1, 7) + 35*std::pow(xi_2 + xi_3 - 1, 8) - 315*std::pow(xi_2 + xi_3 - 1, 5)*std::pow(2*xi_1 + xi_2 + xi_3 - 1, 3) + 693*std::pow(xi_2 + xi_3 - 1, 3)*std::pow(2*xi_1 + xi_2 + xi_3 - 1, 5) - 429*(xi_2 + xi_3 - 1)*std::pow(2*xi_1 + xi_2 + xi_3 - 1, 7))/(16*xi_2 + 16*xi_3 - 16) + 16*(17*xi_2 + xi_3 - 1)*(70*xi_1*std::pow(xi_2 + xi_3 - 1, 7) + 35*std::pow(xi_2 + xi_3 - 1, 8) - 315*std::pow(xi_2 + xi_3 - 1, 5)*std::pow(2*xi_1 + xi_2 + xi_3 - 1, 3) + 693*std::pow(xi_2 + xi_3 - 1, 3)*std::pow(2*xi_1 + xi_2 + xi_3 - 1, 5) - 429*(xi_2 + xi_3 - 1)*std::pow(2*xi_1 + xi_2 + xi_3 - 1, 7))/std::pow(16*xi_2 + 16*xi_3 - 16, 2);
  164 => (35/16)*std::pow(xi_2 + xi_3 - 1, 7) - 315/32*std::pow(xi_2 + xi_3 - 1, 6)*(4*xi_1 + 2*xi_2 + 2*xi_3 - 2) - 945/16*std::pow(xi_2 + xi_3 - 1, 5)*std::pow(2*xi_1 + xi_2 + xi_3 - 1, 2) + (3465/16)*std::pow(xi_2 + xi_3 - 1, 4)*std::pow(2*xi_1 + xi_2 + xi_3 - 1, 3) + (3465/16)*std::pow(xi_2 + xi_3 - 1, 3)*std::pow(2*xi_1 + xi_2 + xi_3 - 1, 4) - 9009/16*std::pow(xi_2 + xi_3 - 1, 2)*std::pow(2*xi_1 + xi_2 + xi_3 - 1, 5) - 3003/32*(2*xi_2 + 2*xi_3 - 2)*std::pow(2*xi_1 + xi_2 + xi_3 - 1, 6) + (6435/16)*std::pow(2*xi_1 + xi_2 + xi_3 - 1, 7);
  165 => 0;
  166 => -273/8*xi_3 + (188955/128)*std::pow(2*xi_3 - 1, 8) + (37791/16)*std::pow(2*xi_3 - 1, 7) - 13923/32*std::pow(2*xi_3 - 1, 6) - 32487/16*std::pow(2*xi_3 - 1, 5) - 25935/64*std::pow(2*xi_3 - 1, 4) + (6825/16)*std::pow(2*xi_3 - 1, 3) + (3549/32)*std::pow(2*xi_3 - 1, 2) + 1827/128;
  167 => -(4*std::pow(xi_3 - 1, 2) - 5*(xi_3 - 1)*(8*xi_2 + 4*xi_3 - 4))*(616*xi_3 + 9690*std::pow(2*xi_3 - 1, 7) + 20349*std::pow(2*xi_3 - 1, 6) + 8568*std::pow(2*xi_3 - 1, 5) - 6545*std::pow(2*xi_3 - 1, 4) - 4830*std::pow(2*xi_3 - 1, 3) - 105*std::pow(2*xi_3 - 1, 2) - 287)/(32*xi_3 - 32);
  168 => -(30*std::pow(xi_3 - 1, 3) + 15*std::pow(xi_3 - 1, 2)*(8*xi_2 + 4*xi_3 - 4) - 210*(xi_3 - 1)*std::pow(2*xi_2 + xi_3 - 1, 2))*(-600*xi_3 + 4845*std::pow(2*xi_3 - 1, 6) + 11628*std::pow(2*xi_3 - 1, 5) + 8415*std::pow(2*xi_3 - 1, 4) + 680*std::pow(2*xi_3 - 1, 3) - 1245*std::pow(2*xi_3 - 1, 2) + 301)/(64*xi_3 - 64);
  169 => (1/32)*(24*std::pow(xi_3 - 1, 3) - 42*std::pow(xi_3 - 1, 2)*(8*xi_2 + 4*xi_3 - 4) - 168*(xi_3 - 1)*std::pow(2*xi_2 + xi_3 - 1, 2) + 504*std::pow(2*xi_2 + xi_3 - 1, 3))*(-20*xi_3 + 1938*std::pow(2*xi_3 - 1, 5) + 4845*std::pow(2*xi_3 - 1, 4) + 4080*std::pow(2*xi_3 - 1, 3) + 1190*std::pow(2*xi_3 - 1, 2) - 21);
  170 => (1/256)*(5848*xi_3 + 4845*std::pow(2*xi_3 - 1, 4) + 11628*std::pow(2*xi_3 - 1, 3) + 9486*std::pow(2*xi_3 - 1, 2) - 2687)*(840*std::pow(-xi_3 + 1, 2)*std::pow(-2*xi_2 - xi_3 + 1, 3) - 2310*(-xi_3 + 1)*std::pow(-2*xi_2 - xi_3 + 1, 4) + 70*std::pow(xi_3 - 1, 5) + 70*std::pow(xi_3 - 1, 4)*(8*xi_2 + 4*xi_3 - 4) - 1260*std::pow(xi_3 - 1, 3)*std::pow(-2*xi_2 - xi_3 + 1, 2))/(xi_3 - 1);
  171 => -(1584*xi_3 + 570*std::pow(2*xi_3 - 1, 3) + 1197*std::pow(2*xi_3 - 1, 2) - 631)*(60*std::pow(xi_3 - 1, 6) - 135*std::pow(xi_3 - 1, 5)*(8*xi_2 + 4*xi_3 - 4) - 1080*std::pow(xi_3 - 1, 4)*std::pow(2*xi_2 + xi_3 - 1, 2) + 3960*std::pow(xi_3 - 1, 3)*std::pow(2*xi_2 + xi_3 - 1, 3) + 1980*std::pow(xi_3 - 1, 2)*std::pow(2*xi_2 + xi_3 - 1, 4) - 5148*(xi_3 - 1)*std::pow(2*xi_2 + xi_3 - 1, 5))/(64*xi_3 - 64);
  172 => -(304*xi_3 + 95*std::pow(2*xi_3 - 1, 2) - 93)*(630*std::pow(xi_3 - 1, 7) + 945*std::pow(xi_3 - 1, 6)*(8*xi_2 + 4*xi_3 - 4) - 20790*std::pow(xi_3 - 1, 5)*std::pow(2*xi_2 + xi_3 - 1, 2) - 27720*std::pow(xi_3 - 1, 4)*std::pow(2*xi_2 + xi_3 - 1, 3) + 90090*std::pow(xi_3 - 1, 3)*std::pow(2*xi_2 + xi_3 - 1, 4) + 36036*std::pow(xi_3 - 1, 2)*std::pow(2*xi_2 + xi_3 - 1, 5) - 90090*(xi_3 - 1)*std::pow(2*xi_2 + xi_3 - 1, 6))/(256*xi_3 - 256);
  173 => (1/128)*(20*xi_3 - 1)*(-1540*std::pow(-xi_3 + 1, 6)*(8*xi_2 + 4*xi_3 - 4) + 18480*std::pow(-xi_3 + 1, 5)*std::pow(2*xi_2 + xi_3 - 1, 2) - 240240*std::pow(-xi_3 + 1, 2)*std::pow(2*xi_2 + xi_3 - 1, 5) + 80080*(-xi_3 + 1)*std::pow(2*xi_2 + xi_3 - 1, 6) + 560*std::pow(xi_3 - 1, 7) + 80080*std::pow(xi_3 - 1, 4)*std::pow(2*xi_2 + xi_3 - 1, 3) + 80080*std::pow(xi_3 - 1, 3)*std::pow(2*xi_2 + xi_3 - 1, 4) + 194480*std::pow(2*xi_2 + xi_3 - 1, 7));
  174 => (1/256)*(144144*std::pow(-xi_3 + 1, 6)*std::pow(-2*xi_2 - xi_3 + 1, 3) - 540540*std::pow(-xi_3 + 1, 5)*std::pow(-2*xi_2 - xi_3 + 1, 4) + 350064*std::pow(-xi_3 + 1, 2)*std::pow(-2*xi_2 - xi_3 + 1, 7) - 831402*(-xi_3 + 1)*std::pow(-2*xi_2 - xi_3 + 1, 8) + 1386*std::pow(xi_3 - 1, 9) + 2772*std::pow(xi_3 - 1, 8)*(8*xi_2 + 4*xi_3 - 4) - 72072*std::pow(xi_3 - 1, 7)*std::pow(-2*xi_2 - xi_3 + 1, 2) - 432432*std::pow(xi_3 - 1, 4)*std::pow(-2*xi_2 - xi_3 + 1, 5) - 1225224*std::pow(xi_3 - 1, 3)*std::pow(-2*xi_2 - xi_3 + 1, 6))/(xi_3 - 1);
  175 => -91/8*xi_3 + (62985/128)*std::pow(2*xi_3 - 1, 8) + (12597/16)*std::pow(2*xi_3 - 1, 7) - 4641/32*std::pow(2*xi_3 - 1, 6) - 10829/16*std::pow(2*xi_3 - 1, 5) - 8645/64*std::pow(2*xi_3 - 1, 4) + (2275/16)*std::pow(2*xi_3 - 1, 3) + (1183/32)*std::pow(2*xi_3 - 1, 2) + 609/128;
  176 => (1/16)*(5*xi_2 + xi_3 - 1)*(616*xi_3 + 9690*std::pow(2*xi_3 - 1, 7) + 20349*std::pow(2*xi_3 - 1, 6) + 8568*std::pow(2*xi_3 - 1, 5) - 6545*std::pow(2*xi_3 - 1, 4) - 4830*std::pow(2*xi_3 - 1, 3) - 105*std::pow(2*xi_3 - 1, 2) - 287) + (5/16)*(2*xi_1 + xi_2 + xi_3 - 1)*(616*xi_3 + 9690*std::pow(2*xi_3 - 1, 7) + 20349*std::pow(2*xi_3 - 1, 6) + 8568*std::pow(2*xi_3 - 1, 5) - 6545*std::pow(2*xi_3 - 1, 4) - 4830*std::pow(2*xi_3 - 1, 3) - 105*std::pow(2*xi_3 - 1, 2) - 287);
  177 => -(36*std::pow(xi_3 - 1, 2) - 21*(xi_3 - 1)*(8*xi_2 + 4*xi_3 - 4))*(2*xi_1 + xi_2 + xi_3 - 1)*(-600*xi_3 + 4845*std::pow(2*xi_3 - 1, 6) + 11628*std::pow(2*xi_3 - 1, 5) + 8415*std::pow(2*xi_3 - 1, 4) + 680*std::pow(2*xi_3 - 1, 3) - 1245*std::pow(2*xi_3 - 1, 2) + 301)/(32*xi_3 - 32) - (36*xi_2*std::pow(xi_3 - 1, 2) + 17*std::pow(xi_3 - 1, 3) - 21*(xi_3 - 1)*std::pow(2*xi_2 + xi_3 - 1, 2))*(-600*xi_3 + 4845*std::pow(2*xi_3 - 1, 6) + 11628*std::pow(2*xi_3 - 1, 5) + 8415*std::pow(2*xi_3 - 1, 4) + 680*std::pow(2*xi_3 - 1, 3) - 1245*std::pow(2*xi_3 - 1, 2) + 301)/(32*xi_3 - 32);
  178 => (1/8)*(-21*(xi_3 - 1)*(8*xi_2 + 4*xi_3 - 4) + 126*std::pow(2*xi_2 + xi_3 - 1, 2))*(2*xi_1 + xi_2 + xi_3 - 1)*(-20*xi_3 + 1938*std::pow(2*xi_3 - 1, 5) + 4845*std::pow(2*xi_3 - 1, 4) + 4080*std::pow(2*xi_3 - 1, 3) + 1190*std::pow(2*xi_3 - 1, 2) - 21) + (1/8)*(2*std::pow(xi_3 - 1, 3) - 21*(xi_3 - 1)*std::pow(2*xi_2 + xi_3 - 1, 2) + 21*std::pow(2*xi_2 + xi_3 - 1, 3))*(-20*xi_3 + 1938*std::pow(2*xi_3 - 1, 5) + 4845*std::pow(2*xi_3 - 1, 4) + 4080*std::pow(2*xi_3 - 1, 3) + 1190*std::pow(2*xi_3 - 1, 2) - 21);
  179 => (1/128)*(2*xi_1 + xi_2 + xi_3 - 1)*(88*std::pow(xi_3 - 1, 3) - 18*std::pow(xi_3 - 1, 2)*(8*xi_2 + 4*xi_3 - 4) - 1080*(xi_3 - 1)*std::pow(2*xi_2 + xi_3 - 1, 2) + 1320*std::pow(2*xi_2 + xi_3 - 1, 3))*(5848*xi_3 + 4845*std::pow(2*xi_3 - 1, 4) + 11628*std::pow(2*xi_3 - 1, 3) + 9486*std::pow(2*xi_3 - 1, 2) - 2687) + (1/128)*(5848*xi_3 + 4845*std::pow(2*xi_3 - 1, 4) + 11628*std::pow(2*xi_3 - 1, 3) + 9486*std::pow(2*xi_3 - 1, 2) - 2687)*(88*xi_2*std::pow(xi_3 - 1, 3) + 41*std::pow(xi_3 - 1, 4) - 18*std::pow(xi_3 - 1, 2)*std::pow(2*xi_2 + xi_3 - 1, 2) - 180*(xi_3 - 1)*std::pow(2*xi_2 + xi_3 - 1, 3) + 165*std::pow(2*xi_2 + xi_3 - 1, 4));
  180 => (1/128)*(2*xi_1 + xi_2 + xi_3 - 1)*(1584*xi_3 + 570*std::pow(2*xi_3 - 1, 3) + 1197*std::pow(2*xi_3 - 1, 2) - 631)*(11880*std::pow(-xi_3 + 1, 2)*std::pow(-2*xi_2 - xi_3 + 1, 3) - 12870*(-xi_3 + 1)*std::pow(-2*xi_2 - xi_3 + 1, 4) - 90*std::pow(xi_3 - 1, 5) + 630*std::pow(xi_3 - 1, 4)*(8*xi_2 + 4*xi_3 - 4) - 1980*std::pow(xi_3 - 1, 3)*std::pow(-2*xi_2 - xi_3 + 1, 2))/(xi_3 - 1) + (1/128)*(1584*xi_3 + 570*std::pow(2*xi_3 - 1, 3) + 1197*std::pow(2*xi_3 - 1, 2) - 631)*(-90*xi_2*std::pow(xi_3 - 1, 5) - 70*std::pow(-xi_3 + 1, 6) - 1485*std::pow(-xi_3 + 1, 2)*std::pow(-2*xi_2 - xi_3 + 1, 4) + 1287*(-xi_3 + 1)*std::pow(-2*xi_2 - xi_3 + 1, 5) + 630*std::pow(xi_3 - 1, 4)*std::pow(-2*xi_2 - xi_3 + 1, 2) + 330*std::pow(xi_3 - 1, 3)*std::pow(-2*xi_2 - xi_3 + 1, 3))/(xi_3 - 1);
  181 => -(304*xi_3 + 95*std::pow(2*xi_3 - 1, 2) - 93)*(2*xi_1 + xi_2 + xi_3 - 1)*(780*std::pow(xi_3 - 1, 6) + 165*std::pow(xi_3 - 1, 5)*(8*xi_2 + 4*xi_3 - 4) - 22440*std::pow(xi_3 - 1, 4)*std::pow(2*xi_2 + xi_3 - 1, 2) + 17160*std::pow(xi_3 - 1, 3)*std::pow(2*xi_2 + xi_3 - 1, 3) + 60060*std::pow(xi_3 - 1, 2)*std::pow(2*xi_2 + xi_3 - 1, 4) - 60060*(xi_3 - 1)*std::pow(2*xi_2 + xi_3 - 1, 5))/(128*xi_3 - 128) - (304*xi_3 + 95*std::pow(2*xi_3 - 1, 2) - 93)*(780*xi_2*std::pow(xi_3 - 1, 6) + 365*std::pow(xi_3 - 1, 7) + 165*std::pow(xi_3 - 1, 5)*std::pow(2*xi_2 + xi_3 - 1, 2) - 3740*std::pow(xi_3 - 1, 4)*std::pow(2*xi_2 + xi_3 - 1, 3) + 2145*std::pow(xi_3 - 1, 3)*std::pow(2*xi_2 + xi_3 - 1, 4) + 6006*std::pow(xi_3 - 1, 2)*std::pow(2*xi_2 + xi_3 - 1, 5) - 5005*(xi_3 - 1)*std::pow(2*xi_2 + xi_3 - 1, 6))/(128*xi_3 - 128);
  182 => (1/32)*(20*xi_3 - 1)*(2*xi_1 + xi_2 + xi_3 - 1)*(-924*std::pow(-xi_3 + 1, 6)*(8*xi_2 + 4*xi_3 - 4) + 72072*std::pow(-xi_3 + 1, 2)*std::pow(-2*xi_2 - xi_3 + 1, 5) - 68068*(-xi_3 + 1)*std::pow(-2*xi_2 - xi_3 + 1, 6) + 154*std::pow(xi_3 - 1, 7) - 40040*std::pow(xi_3 - 1, 4)*std::pow(-2*xi_2 - xi_3 + 1, 3) - 30030*std::pow(xi_3 - 1, 3)*std::pow(-2*xi_2 - xi_3 + 1, 4))/(xi_3 - 1) + (1/32)*(20*xi_3 - 1)*(154*xi_2*std::pow(xi_3 - 1, 7) - 924*std::pow(-xi_3 + 1, 6)*std::pow(-2*xi_2 - xi_3 + 1, 2) - 6006*std::pow(-xi_3 + 1, 2)*std::pow(-2*xi_2 - xi_3 + 1, 6) + 4862*(-xi_3 + 1)*std::pow(-2*xi_2 - xi_3 + 1, 7) + 98*std::pow(xi_3 - 1, 8) + 5005*std::pow(xi_3 - 1, 4)*std::pow(-2*xi_2 - xi_3 + 1, 4) + 3003*std::pow(xi_3 - 1, 3)*std::pow(-2*xi_2 - xi_3 + 1, 5))/(xi_3 - 1);
  183 => (105/8)*xi_2*std::pow(xi_3 - 1, 7) + (1729/16)*std::pow(-xi_3 + 1, 5)*std::pow(2*xi_2 + xi_3 - 1, 3) - 7735/32*std::pow(-xi_3 + 1, 2)*std::pow(2*xi_2 + xi_3 - 1, 6) + (5967/16)*(-xi_3 + 1)*std::pow(2*xi_2 + xi_3 - 1, 7) + (791/128)*std::pow(xi_3 - 1, 8) + (273/32)*std::pow(xi_3 - 1, 6)*std::pow(2*xi_2 + xi_3 - 1, 2) + (1365/64)*std::pow(xi_3 - 1, 4)*std::pow(2*xi_2 + xi_3 - 1, 4) + (6279/16)*std::pow(xi_3 - 1, 3)*std::pow(2*xi_2 + xi_3 - 1, 5) + (37791/128)*std::pow(2*xi_2 + xi_3 - 1, 8) + (1/128)*(2*xi_1 + xi_2 + xi_3 - 1)*(82992*std::pow(-xi_3 + 1, 5)*std::pow(2*xi_2 + xi_3 - 1, 2) - 371280*std::pow(-xi_3 + 1, 2)*std::pow(2*xi_2 + xi_3 - 1, 5) + 668304*(-xi_3 + 1)*std::pow(2*xi_2 + xi_3 - 1, 6) + 1680*std::pow(xi_3 - 1, 7) + 1092*std::pow(xi_3 - 1, 6)*(8*xi_2 + 4*xi_3 - 4) + 21840*std::pow(xi_3 - 1, 4)*std::pow(2*xi_2 + xi_3 - 1, 3) + 502320*std::pow(xi_3 - 1, 3)*std::pow(2*xi_2 + xi_3 - 1, 4) + 604656*std::pow(2*xi_2 + xi_3 - 1, 7));
  184 => (1/32)*(12*xi_1 + 4*xi_2 + 4*xi_3 - 4)*(616*xi_3 + 9690*std::pow(2*xi_3 - 1, 7) + 20349*std::pow(2*xi_3 - 1, 6) + 8568*std::pow(2*xi_3 - 1, 5) - 6545*std::pow(2*xi_3 - 1, 4) - 4830*std::pow(2*xi_3 - 1, 3) - 105*std::pow(2*xi_3 - 1, 2) - 287);
  185 => (7/16)*(-std::pow(xi_2 + xi_3 - 1, 2) + 3*std::pow(2*xi_1 + xi_2 + xi_3 - 1, 2))*(-600*xi_3 + 4845*std::pow(2*xi_3 - 1, 6) + 11628*std::pow(2*xi_3 - 1, 5) + 8415*std::pow(2*xi_3 - 1, 4) + 680*std::pow(2*xi_3 - 1, 3) - 1245*std::pow(2*xi_3 - 1, 2) + 301) + (1/16)*(7*xi_2 + xi_3 - 1)*(12*xi_1 + 4*xi_2 + 4*xi_3 - 4)*(-600*xi_3 + 4845*std::pow(2*xi_3 - 1, 6) + 11628*std::pow(2*xi_3 - 1, 5) + 8415*std::pow(2*xi_3 - 1, 4) + 680*std::pow(2*xi_3 - 1, 3) - 1245*std::pow(2*xi_3 - 1, 2) + 301);
  186 => (20*std::pow(xi_3 - 1, 2) - 9*(xi_3 - 1)*(8*xi_2 + 4*xi_3 - 4))*(std::pow(xi_2 + xi_3 - 1, 2) - 3*std::pow(2*xi_1 + xi_2 + xi_3 - 1, 2))*(-20*xi_3 + 1938*std::pow(2*xi_3 - 1, 5) + 4845*std::pow(2*xi_3 - 1, 4) + 4080*std::pow(2*xi_3 - 1, 3) + 1190*std::pow(2*xi_3 - 1, 2) - 21)/(8*xi_3 - 8) + (20*xi_2*std::pow(xi_3 - 1, 2) + 8*std::pow(xi_3 - 1, 3) - 9*(xi_3 - 1)*std::pow(2*xi_2 + xi_3 - 1, 2))*(-12*xi_1 - 4*xi_2 - 4*xi_3 + 4)*(-20*xi_3 + 1938*std::pow(2*xi_3 - 1, 5) + 4845*std::pow(2*xi_3 - 1, 4) + 4080*std::pow(2*xi_3 - 1, 3) + 1190*std::pow(2*xi_3 - 1, 2) - 21)/(8*xi_3 - 8);
  187 => (1/256)*(-std::pow(xi_2 + xi_3 - 1, 2) + 3*std::pow(2*xi_1 + xi_2 + xi_3 - 1, 2))*(-225*std::pow(-xi_3 + 1, 2)*(8*xi_2 + 4*xi_3 - 4) - 990*(-xi_3 + 1)*std::pow(-2*xi_2 - xi_3 + 1, 2) + 126*std::pow(xi_3 - 1, 3))*(5848*xi_3 + 4845*std::pow(2*xi_3 - 1, 4) + 11628*std::pow(2*xi_3 - 1, 3) + 9486*std::pow(2*xi_3 - 1, 2) - 2687)/(xi_3 - 1) + (1/256)*(12*xi_1 + 4*xi_2 + 4*xi_3 - 4)*(126*xi_2*std::pow(xi_3 - 1, 3) - 225*std::pow(-xi_3 + 1, 2)*std::pow(-2*xi_2 - xi_3 + 1, 2) + 165*(-xi_3 + 1)*std::pow(-2*xi_2 - xi_3 + 1, 3) + 68*std::pow(xi_3 - 1, 4))*(5848*xi_3 + 4845*std::pow(2*xi_3 - 1, 4) + 11628*std::pow(2*xi_3 - 1, 3) + 9486*std::pow(2*xi_3 - 1, 2) - 2687)/(xi_3 - 1);
  188 => (1/128)*(-std::pow(xi_2 + xi_3 - 1, 2) + 3*std::pow(2*xi_1 + xi_2 + xi_3 - 1, 2))*(1584*xi_3 + 570*std::pow(2*xi_3 - 1, 3) + 1197*std::pow(2*xi_3 - 1, 2) - 631)*(200*std::pow(xi_3 - 1, 3) + 330*std::pow(xi_3 - 1, 2)*(8*xi_2 + 4*xi_3 - 4) - 6600*(xi_3 - 1)*std::pow(2*xi_2 + xi_3 - 1, 2) + 5720*std::pow(2*xi_2 + xi_3 - 1, 3)) + (1/128)*(12*xi_1 + 4*xi_2 + 4*xi_3 - 4)*(1584*xi_3 + 570*std::pow(2*xi_3 - 1, 3) + 1197*std::pow(2*xi_3 - 1, 2) - 631)*(200*xi_2*std::pow(xi_3 - 1, 3) + 71*std::pow(xi_3 - 1, 4) + 330*std::pow(xi_3 - 1, 2)*std::pow(2*xi_2 + xi_3 - 1, 2) - 1100*(xi_3 - 1)*std::pow(2*xi_2 + xi_3 - 1, 3) + 715*std::pow(2*xi_2 + xi_3 - 1, 4));
  189 => (std::pow(xi_2 + xi_3 - 1, 2) - 3*std::pow(2*xi_1 + xi_2 + xi_3 - 1, 2))*(304*xi_3 + 95*std::pow(2*xi_3 - 1, 2) - 93)*(770*std::pow(xi_3 - 1, 5) - 990*std::pow(xi_3 - 1, 4)*(8*xi_2 + 4*xi_3 - 4) - 8580*std::pow(xi_3 - 1, 3)*std::pow(2*xi_2 + xi_3 - 1, 2) + 40040*std::pow(xi_3 - 1, 2)*std::pow(2*xi_2 + xi_3 - 1, 3) - 30030*(xi_3 - 1)*std::pow(2*xi_2 + xi_3 - 1, 4))/(128*xi_3 - 128) + (304*xi_3 + 95*std::pow(2*xi_3 - 1, 2) - 93)*(-12*xi_1 - 4*xi_2 - 4*xi_3 + 4)*(770*xi_2*std::pow(xi_3 - 1, 5) + 386*std::pow(xi_3 - 1, 6) - 990*std::pow(xi_3 - 1, 4)*std::pow(2*xi_2 + xi_3 - 1, 2) - 1430*std::pow(xi_3 - 1, 3)*std::pow(2*xi_2 + xi_3 - 1, 3) + 5005*std::pow(xi_3 - 1, 2)*std::pow(2*xi_2 + xi_3 - 1, 4) - 3003*(xi_3 - 1)*std::pow(2*xi_2 + xi_3 - 1, 5))/(128*xi_3 - 128);
  190 => (1/32)*(20*xi_3 - 1)*(std::pow(xi_2 + xi_3 - 1, 2) - 3*std::pow(2*xi_1 + xi_2 + xi_3 - 1, 2))*(96*std::pow(xi_3 - 1, 5) + 780*std::pow(xi_3 - 1, 4)*(8*xi_2 + 4*xi_3 - 4) - 10920*std::pow(xi_3 - 1, 3)*std::pow(2*xi_2 + xi_3 - 1, 2) - 10920*std::pow(xi_3 - 1, 2)*std::pow(2*xi_2 + xi_3 - 1, 3) + 54600*(xi_3 - 1)*std::pow(2*xi_2 + xi_3 - 1, 4) - 37128*std::pow(2*xi_2 + xi_3 - 1, 5)) + (1/32)*(20*xi_3 - 1)*(-12*xi_1 - 4*xi_2 - 4*xi_3 + 4)*(96*xi_2*std::pow(xi_3 - 1, 5) + 23*std::pow(xi_3 - 1, 6) + 780*std::pow(xi_3 - 1, 4)*std::pow(2*xi_2 + xi_3 - 1, 2) - 1820*std::pow(xi_3 - 1, 3)*std::pow(2*xi_2 + xi_3 - 1, 3) - 1365*std::pow(xi_3 - 1, 2)*std::pow(2*xi_2 + xi_3 - 1, 4) + 5460*(xi_3 - 1)*std::pow(2*xi_2 + xi_3 - 1, 5) - 3094*std::pow(2*xi_2 + xi_3 - 1, 6));
  191 => (1/64)*(-std::pow(xi_2 + xi_3 - 1, 2) + 3*std::pow(2*xi_1 + xi_2 + xi_3 - 1, 2))*(-819*std::pow(-xi_3 + 1, 6)*(8*xi_2 + 4*xi_3 - 4) - 46410*std::pow(-xi_3 + 1, 3)*std::pow(-2*xi_2 - xi_3 + 1, 4) + 278460*std::pow(-xi_3 + 1, 2)*std::pow(-2*xi_2 - xi_3 + 1, 5) - 176358*(-xi_3 + 1)*std::pow(-2*xi_2 - xi_3 + 1, 6) + 910*std::pow(xi_3 - 1, 7) - 30030*std::pow(xi_3 - 1, 5)*std::pow(-2*xi_2 - xi_3 + 1, 2) - 91000*std::pow(xi_3 - 1, 4)*std::pow(-2*xi_2 - xi_3 + 1, 3))/(xi_3 - 1) + (1/64)*(12*xi_1 + 4*xi_2 + 4*xi_3 - 4)*(910*xi_2*std::pow(xi_3 - 1, 7) - 819*std::pow(-xi_3 + 1, 6)*std::pow(-2*xi_2 - xi_3 + 1, 2) + 4641*std::pow(-xi_3 + 1, 3)*std::pow(-2*xi_2 - xi_3 + 1, 5) - 23205*std::pow(-xi_3 + 1, 2)*std::pow(-2*xi_2 - xi_3 + 1, 6) + 12597*(-xi_3 + 1)*std::pow(-2*xi_2 - xi_3 + 1, 7) + 448*std::pow(xi_3 - 1, 8) + 5005*std::pow(xi_3 - 1, 5)*std::pow(-2*xi_2 - xi_3 + 1, 3) + 11375*std::pow(xi_3 - 1, 4)*std::pow(-2*xi_2 - xi_3 + 1, 4))/(xi_3 - 1);
  192 => -(18*xi_1*std::pow(xi_2 + xi_3 - 1, 2) + 12*std::pow(xi_2 + xi_3 - 1, 3) - 15*(xi_2 + xi_3 - 1)*std::pow(2*xi_1 + xi_2 + xi_3 - 1, 2) - 5*std::pow(2*xi_1 + xi_2 + xi_3 - 1, 3))*(-600*xi_3 + 4845*std::pow(2*xi_3 - 1, 6) + 11628*std::pow(2*xi_3 - 1, 5) + 8415*std::pow(2*xi_3 - 1, 4) + 680*std::pow(2*xi_3 - 1, 3) - 1245*std::pow(2*xi_3 - 1, 2) + 301)/(16*xi_2 + 16*xi_3 - 16) + 16*(6*xi_1*std::pow(xi_2 + xi_3 - 1, 3) + 3*std::pow(xi_2 + xi_3 - 1, 4) - 5*(xi_2 + xi_3 - 1)*std::pow(2*xi_1 + xi_2 + xi_3 - 1, 3))*(-600*xi_3 + 4845*std::pow(2*xi_3 - 1, 6) + 11628*std::pow(2*xi_3 - 1, 5) + 8415*std::pow(2*xi_3 - 1, 4) + 680*std::pow(2*xi_3 - 1, 3) - 1245*std::pow(2*xi_3 - 1, 2) + 301)/std::pow(16*xi_2 + 16*xi_3 - 16, 2);
  193 => (1/8)*(9*xi_2 + xi_3 - 1)*(18*xi_1*std::pow(xi_2 + xi_3 - 1, 2) + 15*(-xi_2 - xi_3 + 1)*std::pow(2*xi_1 + xi_2 + xi_3 - 1, 2) + 12*std::pow(xi_2 + xi_3 - 1, 3) - 5*std::pow(2*xi_1 + xi_2 + xi_3 - 1, 3))*(-20*xi_3 + 1938*std::pow(2*xi_3 - 1, 5) + 4845*std::pow(2*xi_3 - 1, 4) + 4080*std::pow(2*xi_3 - 1, 3) + 1190*std::pow(2*xi_3 - 1, 2) - 21)/(-xi_2 - xi_3 + 1) + (9/8)*(6*xi_1*std::pow(xi_2 + xi_3 - 1, 3) + 5*(-xi_2 - xi_3 + 1)*std::pow(2*xi_1 + xi_2 + xi_3 - 1, 3) + 3*std::pow(xi_2 + xi_3 - 1, 4))*(-20*xi_3 + 1938*std::pow(2*xi_3 - 1, 5) + 4845*std::pow(2*xi_3 - 1, 4) + 4080*std::pow(2*xi_3 - 1, 3) + 1190*std::pow(2*xi_3 - 1, 2) - 21)/(-xi_2 - xi_3 + 1) + (1/8)*(9*xi_2 + xi_3 - 1)*(6*xi_1*std::pow(xi_2 + xi_3 - 1, 3) + 5*(-xi_2 - xi_3 + 1)*std::pow(2*xi_1 + xi_2 + xi_3 - 1, 3) + 3*std::pow(xi_2 + xi_3 - 1, 4))*(-20*xi_3 + 1938*std::pow(2*xi_3 - 1, 5) + 4845*std::pow(2*xi_3 - 1, 4) + 4080*std::pow(2*xi_3 - 1, 3) + 1190*std::pow(2*xi_3 - 1, 2) - 21)/std::pow(-xi_2 - xi_3 + 1, 2);
  194 => (1/128)*(55*(-xi_3 + 1)*(8*xi_2 + 4*xi_3 - 4) + 140*std::pow(xi_3 - 1, 2))*(6*xi_1*std::pow(xi_2 + xi_3 - 1, 3) + 5*(-xi_2 - xi_3 + 1)*std::pow(2*xi_1 + xi_2 + xi_3 - 1, 3) + 3*std::pow(xi_2 + xi_3 - 1, 4))*(5848*xi_3 + 4845*std::pow(2*xi_3 - 1, 4) + 11628*std::pow(2*xi_3 - 1, 3) + 9486*std::pow(2*xi_3 - 1, 2) - 2687)/((xi_3 - 1)*(xi_2 + xi_3 - 1)) + (1/128)*(140*xi_2*std::pow(xi_3 - 1, 2) + 55*(-xi_3 + 1)*std::pow(-2*xi_2 - xi_3 + 1, 2) + 51*std::pow(xi_3 - 1, 3))*(18*xi_1*std::pow(xi_2 + xi_3 - 1, 2) + 15*(-xi_2 - xi_3 + 1)*std::pow(2*xi_1 + xi_2 + xi_3 - 1, 2) + 12*std::pow(xi_2 + xi_3 - 1, 3) - 5*std::pow(2*xi_1 + xi_2 + xi_3 - 1, 3))*(5848*xi_3 + 4845*std::pow(2*xi_3 - 1, 4) + 11628*std::pow(2*xi_3 - 1, 3) + 9486*std::pow(2*xi_3 - 1, 2) - 2687)/((xi_3 - 1)*(xi_2 + xi_3 - 1)) - 1/128*(6*xi_1*std::pow(xi_2 + xi_3 - 1, 3) + 5*(-xi_2 - xi_3 + 1)*std::pow(2*xi_1 + xi_2 + xi_3 - 1, 3) + 3*std::pow(xi_2 + xi_3 - 1, 4))*(140*xi_2*std::pow(xi_3 - 1, 2) + 55*(-xi_3 + 1)*std::pow(-2*xi_2 - xi_3 + 1, 2) + 51*std::pow(xi_3 - 1, 3))*(5848*xi_3 + 4845*std::pow(2*xi_3 - 1, 4) + 11628*std::pow(2*xi_3 - 1, 3) + 9486*std::pow(2*xi_3 - 1, 2) - 2687)/((xi_3 - 1)*std::pow(xi_2 + xi_3 - 1, 2));
  195 => -(6*xi_1*std::pow(xi_2 + xi_3 - 1, 3) + 3*std::pow(xi_2 + xi_3 - 1, 4) - 5*(xi_2 + xi_3 - 1)*std::pow(2*xi_1 + xi_2 + xi_3 - 1, 3))*(198*std::pow(xi_3 - 1, 2) - 231*(xi_3 - 1)*(8*xi_2 + 4*xi_3 - 4) + 858*std::pow(2*xi_2 + xi_3 - 1, 2))*(1584*xi_3 + 570*std::pow(2*xi_3 - 1, 3) + 1197*std::pow(2*xi_3 - 1, 2) - 631)/(32*xi_2 + 32*xi_3 - 32) - (1584*xi_3 + 570*std::pow(2*xi_3 - 1, 3) + 1197*std::pow(2*xi_3 - 1, 2) - 631)*(18*xi_1*std::pow(xi_2 + xi_3 - 1, 2) + 12*std::pow(xi_2 + xi_3 - 1, 3) - 15*(xi_2 + xi_3 - 1)*std::pow(2*xi_1 + xi_2 + xi_3 - 1, 2) - 5*std::pow(2*xi_1 + xi_2 + xi_3 - 1, 3))*(198*xi_2*std::pow(xi_3 - 1, 2) + 92*std::pow(xi_3 - 1, 3) - 231*(xi_3 - 1)*std::pow(2*xi_2 + xi_3 - 1, 2) + 143*std::pow(2*xi_2 + xi_3 - 1, 3))/(32*xi_2 + 32*xi_3 - 32) + 32*(6*xi_1*std::pow(xi_2 + xi_3 - 1, 3) + 3*std::pow(xi_2 + xi_3 - 1, 4) - 5*(xi_2 + xi_3 - 1)*std::pow(2*xi_1 + xi_2 + xi_3 - 1, 3))*(1584*xi_3 + 570*std::pow(2*xi_3 - 1, 3) + 1197*std::pow(2*xi_3 - 1, 2) - 631)*(198*xi_2*std::pow(xi_3 - 1, 2) + 92*std::pow(xi_3 - 1, 3) - 231*(xi_3 - 1)*std::pow(2*xi_2 + xi_3 - 1, 2) + 143*std::pow(2*xi_2 + xi_3 - 1, 3))/std::pow(32*xi_2 + 32*xi_3 - 32, 2);
  196 => (304*xi_3 + 95*std::pow(2*xi_3 - 1, 2) - 93)*(6*xi_1*std::pow(xi_2 + xi_3 - 1, 3) + 3*std::pow(xi_2 + xi_3 - 1, 4) - 5*(xi_2 + xi_3 - 1)*std::pow(2*xi_1 + xi_2 + xi_3 - 1, 3))*(168*std::pow(xi_3 - 1, 3) - 1326*std::pow(xi_3 - 1, 2)*(8*xi_2 + 4*xi_3 - 4) + 15288*(xi_3 - 1)*std::pow(2*xi_2 + xi_3 - 1, 2) - 10920*std::pow(2*xi_2 + xi_3 - 1, 3))/(64*xi_2 + 64*xi_3 - 64) + (304*xi_3 + 95*std::pow(2*xi_3 - 1, 2) - 93)*(18*xi_1*std::pow(xi_2 + xi_3 - 1, 2) + 12*std::pow(xi_2 + xi_3 - 1, 3) - 15*(xi_2 + xi_3 - 1)*std::pow(2*xi_1 + xi_2 + xi_3 - 1, 2) - 5*std::pow(2*xi_1 + xi_2 + xi_3 - 1, 3))*(168*xi_2*std::pow(xi_3 - 1, 3) + 127*std::pow(xi_3 - 1, 4) - 1326*std::pow(xi_3 - 1, 2)*std::pow(2*xi_2 + xi_3 - 1, 2) + 2548*(xi_3 - 1)*std::pow(2*xi_2 + xi_3 - 1, 3) - 1365*std::pow(2*xi_2 + xi_3 - 1, 4))/(64*xi_2 + 64*xi_3 - 64) - 64*(304*xi_3 + 95*std::pow(2*xi_3 - 1, 2) - 93)*(6*xi_1*std::pow(xi_2 + xi_3 - 1, 3) + 3*std::pow(xi_2 + xi_3 - 1, 4) - 5*(xi_2 + xi_3 - 1)*std::pow(2*xi_1 + xi_2 + xi_3 - 1, 3))*(168*xi_2*std::pow(xi_3 - 1, 3) + 127*std::pow(xi_3 - 1, 4) - 1326*std::pow(xi_3 - 1, 2)*std::pow(2*xi_2 + xi_3 - 1, 2) + 2548*(xi_3 - 1)*std::pow(2*xi_2 + xi_3 - 1, 3) - 1365*std::pow(2*xi_2 + xi_3 - 1, 4))/std::pow(64*xi_2 + 64*xi_3 - 64, 2);
  197 => (1/16)*(20*xi_3 - 1)*(6*xi_1*std::pow(xi_2 + xi_3 - 1, 3) + 5*(-xi_2 - xi_3 + 1)*std::pow(2*xi_1 + xi_2 + xi_3 - 1, 3) + 3*std::pow(xi_2 + xi_3 - 1, 4))*(10920*std::pow(-xi_3 + 1, 3)*std::pow(2*xi_2 + xi_3 - 1, 2) + 15470*(-xi_3 + 1)*std::pow(2*xi_2 + xi_3 - 1, 4) + 390*std::pow(xi_3 - 1, 5) + 25480*std::pow(xi_3 - 1, 2)*std::pow(2*xi_2 + xi_3 - 1, 3))/((xi_3 - 1)*(xi_2 + xi_3 - 1)) + (1/16)*(20*xi_3 - 1)*(18*xi_1*std::pow(xi_2 + xi_3 - 1, 2) + 15*(-xi_2 - xi_3 + 1)*std::pow(2*xi_1 + xi_2 + xi_3 - 1, 2) + 12*std::pow(xi_2 + xi_3 - 1, 3) - 5*std::pow(2*xi_1 + xi_2 + xi_3 - 1, 3))*(390*xi_2*std::pow(xi_3 - 1, 5) + 1820*std::pow(-xi_3 + 1, 3)*std::pow(2*xi_2 + xi_3 - 1, 3) + 1547*(-xi_3 + 1)*std::pow(2*xi_2 + xi_3 - 1, 5) + 174*std::pow(xi_3 - 1, 6) + 3185*std::pow(xi_3 - 1, 2)*std::pow(2*xi_2 + xi_3 - 1, 4))/((xi_3 - 1)*(xi_2 + xi_3 - 1)) - 1/16*(20*xi_3 - 1)*(6*xi_1*std::pow(xi_2 + xi_3 - 1, 3) + 5*(-xi_2 - xi_3 + 1)*std::pow(2*xi_1 + xi_2 + xi_3 - 1, 3) + 3*std::pow(xi_2 + xi_3 - 1, 4))*(390*xi_2*std::pow(xi_3 - 1, 5) + 1820*std::pow(-xi_3 + 1, 3)*std::pow(2*xi_2 + xi_3 - 1, 3) + 1547*(-xi_3 + 1)*std::pow(2*xi_2 + xi_3 - 1, 5) + 174*std::pow(xi_3 - 1, 6) + 3185*std::pow(xi_3 - 1, 2)*std::pow(2*xi_2 + xi_3 - 1, 4))/((xi_3 - 1)*std::pow(xi_2 + xi_3 - 1, 2));
  198 => -(6*xi_1*std::pow(xi_2 + xi_3 - 1, 3) + 3*std::pow(xi_2 + xi_3 - 1, 4) - 5*(xi_2 + xi_3 - 1)*std::pow(2*xi_1 + xi_2 + xi_3 - 1, 3))*(588*std::pow(xi_3 - 1, 5) - 1995*std::pow(xi_3 - 1, 4)*(8*xi_2 + 4*xi_3 - 4) + 5880*std::pow(xi_3 - 1, 3)*std::pow(2*xi_2 + xi_3 - 1, 2) + 71400*std::pow(xi_3 - 1, 2)*std::pow(2*xi_2 + xi_3 - 1, 3) - 149940*(xi_3 - 1)*std::pow(2*xi_2 + xi_3 - 1, 4) + 81396*std::pow(2*xi_2 + xi_3 - 1, 5))/(32*xi_2 + 32*xi_3 - 32) - (18*xi_1*std::pow(xi_2 + xi_3 - 1, 2) + 12*std::pow(xi_2 + xi_3 - 1, 3) - 15*(xi_2 + xi_3 - 1)*std::pow(2*xi_1 + xi_2 + xi_3 - 1, 2) - 5*std::pow(2*xi_1 + xi_2 + xi_3 - 1, 3))*(588*xi_2*std::pow(xi_3 - 1, 5) + 317*std::pow(xi_3 - 1, 6) - 1995*std::pow(xi_3 - 1, 4)*std::pow(2*xi_2 + xi_3 - 1, 2) + 980*std::pow(xi_3 - 1, 3)*std::pow(2*xi_2 + xi_3 - 1, 3) + 8925*std::pow(xi_3 - 1, 2)*std::pow(2*xi_2 + xi_3 - 1, 4) - 14994*(xi_3 - 1)*std::pow(2*xi_2 + xi_3 - 1, 5) + 6783*std::pow(2*xi_2 + xi_3 - 1, 6))/(32*xi_2 + 32*xi_3 - 32) + 32*(6*xi_1*std::pow(xi_2 + xi_3 - 1, 3) + 3*std::pow(xi_2 + xi_3 - 1, 4) - 5*(xi_2 + xi_3 - 1)*std::pow(2*xi_1 + xi_2 + xi_3 - 1, 3))*(588*xi_2*std::pow(xi_3 - 1, 5) + 317*std::pow(xi_3 - 1, 6) - 1995*std::pow(xi_3 - 1, 4)*std::pow(2*xi_2 + xi_3 - 1, 2) + 980*std::pow(xi_3 - 1, 3)*std::pow(2*xi_2 + xi_3 - 1, 3) + 8925*std::pow(xi_3 - 1, 2)*std::pow(2*xi_2 + xi_3 - 1, 4) - 14994*(xi_3 - 1)*std::pow(2*xi_2 + xi_3 - 1, 5) + 6783*std::pow(2*xi_2 + xi_3 - 1, 6))/std::pow(32*xi_2 + 32*xi_3 - 32, 2);
  199 => (1/32)*(12*std::pow(xi_2 + xi_3 - 1, 3) - 30*std::pow(xi_2 + xi_3 - 1, 2)*(4*xi_1 + 2*xi_2 + 2*xi_3 - 2) - 30*(2*xi_2 + 2*xi_3 - 2)*std::pow(2*xi_1 + xi_2 + xi_3 - 1, 2) + 140*std::pow(2*xi_1 + xi_2 + xi_3 - 1, 3))*(-20*xi_3 + 1938*std::pow(2*xi_3 - 1, 5) + 4845*std::pow(2*xi_3 - 1, 4) + 4080*std::pow(2*xi_3 - 1, 3) + 1190*std::pow(2*xi_3 - 1, 2) - 21);
  200 => (1/128)*(11*xi_2 + xi_3 - 1)*(12*std::pow(xi_2 + xi_3 - 1, 3) - 30*std::pow(xi_2 + xi_3 - 1, 2)*(4*xi_1 + 2*xi_2 + 2*xi_3 - 2) - 30*(2*xi_2 + 2*xi_3 - 2)*std::pow(2*xi_1 + xi_2 + xi_3 - 1, 2) + 140*std::pow(2*xi_1 + xi_2 + xi_3 - 1, 3))*(5848*xi_3 + 4845*std::pow(2*xi_3 - 1, 4) + 11628*std::pow(2*xi_3 - 1, 3) + 9486*std::pow(2*xi_3 - 1, 2) - 2687) + (11/128)*(3*std::pow(xi_2 + xi_3 - 1, 4) - 30*std::pow(xi_2 + xi_3 - 1, 2)*std::pow(2*xi_1 + xi_2 + xi_3 - 1, 2) + 35*std::pow(2*xi_1 + xi_2 + xi_3 - 1, 4))*(5848*xi_3 + 4845*std::pow(2*xi_3 - 1, 4) + 11628*std::pow(2*xi_3 - 1, 3) + 9486*std::pow(2*xi_3 - 1, 2) - 2687);
  201 => -(108*std::pow(xi_3 - 1, 2) - 39*(xi_3 - 1)*(8*xi_2 + 4*xi_3 - 4))*(3*std::pow(xi_2 + xi_3 - 1, 4) - 30*std::pow(xi_2 + xi_3 - 1, 2)*std::pow(2*xi_1 + xi_2 + xi_3 - 1, 2) + 35*std::pow(2*xi_1 + xi_2 + xi_3 - 1, 4))*(1584*xi_3 + 570*std::pow(2*xi_3 - 1, 3) + 1197*std::pow(2*xi_3 - 1, 2) - 631)/(64*xi_3 - 64) - (108*xi_2*std::pow(xi_3 - 1, 2) + 37*std::pow(xi_3 - 1, 3) - 39*(xi_3 - 1)*std::pow(2*xi_2 + xi_3 - 1, 2))*(1584*xi_3 + 570*std::pow(2*xi_3 - 1, 3) + 1197*std::pow(2*xi_3 - 1, 2) - 631)*(12*std::pow(xi_2 + xi_3 - 1, 3) - 30*std::pow(xi_2 + xi_3 - 1, 2)*(4*xi_1 + 2*xi_2 + 2*xi_3 - 2) - 30*(2*xi_2 + 2*xi_3 - 2)*std::pow(2*xi_1 + xi_2 + xi_3 - 1, 2) + 140*std::pow(2*xi_1 + xi_2 + xi_3 - 1, 3))/(64*xi_3 - 64);
  202 => (1/128)*(304*xi_3 + 95*std::pow(2*xi_3 - 1, 2) - 93)*(-819*std::pow(-xi_3 + 1, 2)*(8*xi_2 + 4*xi_3 - 4) - 2730*(-xi_3 + 1)*std::pow(-2*xi_2 - xi_3 + 1, 2) + 858*std::pow(xi_3 - 1, 3))*(3*std::pow(xi_2 + xi_3 - 1, 4) - 30*std::pow(xi_2 + xi_3 - 1, 2)*std::pow(2*xi_1 + xi_2 + xi_3 - 1, 2) + 35*std::pow(2*xi_1 + xi_2 + xi_3 - 1, 4))/(xi_3 - 1) + (1/128)*(304*xi_3 + 95*std::pow(2*xi_3 - 1, 2) - 93)*(858*xi_2*std::pow(xi_3 - 1, 3) - 819*std::pow(-xi_3 + 1, 2)*std::pow(-2*xi_2 - xi_3 + 1, 2) + 455*(-xi_3 + 1)*std::pow(-2*xi_2 - xi_3 + 1, 3) + 372*std::pow(xi_3 - 1, 4))*(12*std::pow(xi_2 + xi_3 - 1, 3) - 30*std::pow(xi_2 + xi_3 - 1, 2)*(4*xi_1 + 2*xi_2 + 2*xi_3 - 2) - 30*(2*xi_2 + 2*xi_3 - 2)*std::pow(2*xi_1 + xi_2 + xi_3 - 1, 2) + 140*std::pow(2*xi_1 + xi_2 + xi_3 - 1, 3))/(xi_3 - 1);
  203 => (1/32)*(20*xi_3 - 1)*(3*std::pow(xi_2 + xi_3 - 1, 4) - 30*std::pow(xi_2 + xi_3 - 1, 2)*std::pow(2*xi_1 + xi_2 + xi_3 - 1, 2) + 35*std::pow(2*xi_1 + xi_2 + xi_3 - 1, 4))*(-336*std::pow(xi_3 - 1, 3) + 840*std::pow(xi_3 - 1, 2)*(8*xi_2 + 4*xi_3 - 4) - 7560*(xi_3 - 1)*std::pow(2*xi_2 + xi_3 - 1, 2) + 4760*std::pow(2*xi_2 + xi_3 - 1, 3)) + (1/32)*(20*xi_3 - 1)*(12*std::pow(xi_2 + xi_3 - 1, 3) - 30*std::pow(xi_2 + xi_3 - 1, 2)*(4*xi_1 + 2*xi_2 + 2*xi_3 - 2) - 30*(2*xi_2 + 2*xi_3 - 2)*std::pow(2*xi_1 + xi_2 + xi_3 - 1, 2) + 140*std::pow(2*xi_1 + xi_2 + xi_3 - 1, 3))*(-336*xi_2*std::pow(xi_3 - 1, 3) - 171*std::pow(xi_3 - 1, 4) + 840*std::pow(xi_3 - 1, 2)*std::pow(2*xi_2 + xi_3 - 1, 2) - 1260*(xi_3 - 1)*std::pow(2*xi_2 + xi_3 - 1, 3) + 595*std::pow(2*xi_2 + xi_3 - 1, 4));
  204 => -(3*std::pow(xi_2 + xi_3 - 1, 4) - 30*std::pow(xi_2 + xi_3 - 1, 2)*std::pow(2*xi_1 + xi_2 + xi_3 - 1, 2) + 35*std::pow(2*xi_1 + xi_2 + xi_3 - 1, 4))*(330*std::pow(xi_3 - 1, 5) + 1170*std::pow(xi_3 - 1, 4)*(8*xi_2 + 4*xi_3 - 4) - 31620*std::pow(xi_3 - 1, 3)*std::pow(2*xi_2 + xi_3 - 1, 2) + 55080*std::pow(xi_3 - 1, 2)*std::pow(2*xi_2 + xi_3 - 1, 3) - 29070*(xi_3 - 1)*std::pow(2*xi_2 + xi_3 - 1, 4))/(64*xi_3 - 64) - (12*std::pow(xi_2 + xi_3 - 1, 3) - 30*std::pow(xi_2 + xi_3 - 1, 2)*(4*xi_1 + 2*xi_2 + 2*xi_3 - 2) - 30*(2*xi_2 + 2*xi_3 - 2)*std::pow(2*xi_1 + xi_2 + xi_3 - 1, 2) + 140*std::pow(2*xi_1 + xi_2 + xi_3 - 1, 3))*(330*xi_2*std::pow(xi_3 - 1, 5) + 114*std::pow(xi_3 - 1, 6) + 1170*std::pow(xi_3 - 1, 4)*std::pow(2*xi_2 + xi_3 - 1, 2) - 5270*std::pow(xi_3 - 1, 3)*std::pow(2*xi_2 + xi_3 - 1, 3) + 6885*std::pow(xi_3 - 1, 2)*std::pow(2*xi_2 + xi_3 - 1, 4) - 2907*(xi_3 - 1)*std::pow(2*xi_2 + xi_3 - 1, 5))/(64*xi_3 - 64);
  205 => (1/128)*(5848*xi_3 + 4845*std::pow(2*xi_3 - 1, 4) + 11628*std::pow(2*xi_3 - 1, 3) + 9486*std::pow(2*xi_3 - 1, 2) - 2687)*(150*xi_1*std::pow(xi_2 + xi_3 - 1, 4) - 315*(-xi_2 - xi_3 + 1)*std::pow(-2*xi_1 - xi_2 - xi_3 + 1, 4) + 90*std::pow(xi_2 + xi_3 - 1, 5) - 210*std::pow(xi_2 + xi_3 - 1, 3)*std::pow(-2*xi_1 - xi_2 - xi_3 + 1, 2) + 210*std::pow(xi_2 + xi_3 - 1, 2)*std::pow(-2*xi_1 - xi_2 - xi_3 + 1, 3) - 63*std::pow(-2*xi_1 - xi_2 - xi_3 + 1, 5))/(xi_2 + xi_3 - 1) - 1/128*(30*xi_1*std::pow(xi_2 + xi_3 - 1, 5) + 63*(-xi_2 - xi_3 + 1)*std::pow(-2*xi_1 - xi_2 - xi_3 + 1, 5) + 15*std::pow(xi_2 + xi_3 - 1, 6) + 70*std::pow(xi_2 + xi_3 - 1, 3)*std::pow(-2*xi_1 - xi_2 - xi_3 + 1, 3))*(5848*xi_3 + 4845*std::pow(2*xi_3 - 1, 4) + 11628*std::pow(2*xi_3 - 1, 3) + 9486*std::pow(2*xi_3 - 1, 2) - 2687)/std::pow(xi_2 + xi_3 - 1, 2);
  206 => (1/32)*(13*xi_2 + xi_3 - 1)*(1584*xi_3 + 570*std::pow(2*xi_3 - 1, 3) + 1197*std::pow(2*xi_3 - 1, 2) - 631)*(150*xi_1*std::pow(xi_2 + xi_3 - 1, 4) - 315*(-xi_2 - xi_3 + 1)*std::pow(-2*xi_1 - xi_2 - xi_3 + 1, 4) + 90*std::pow(xi_2 + xi_3 - 1, 5) - 210*std::pow(xi_2 + xi_3 - 1, 3)*std::pow(-2*xi_1 - xi_2 - xi_3 + 1, 2) + 210*std::pow(xi_2 + xi_3 - 1, 2)*std::pow(-2*xi_1 - xi_2 - xi_3 + 1, 3) - 63*std::pow(-2*xi_1 - xi_2 - xi_3 + 1, 5))/(xi_2 + xi_3 - 1) + (13/32)*(1584*xi_3 + 570*std::pow(2*xi_3 - 1, 3) + 1197*std::pow(2*xi_3 - 1, 2) - 631)*(30*xi_1*std::pow(xi_2 + xi_3 - 1, 5) + 63*(-xi_2 - xi_3 + 1)*std::pow(-2*xi_1 - xi_2 - xi_3 + 1, 5) + 15*std::pow(xi_2 + xi_3 - 1, 6) + 70*std::pow(xi_2 + xi_3 - 1, 3)*std::pow(-2*xi_1 - xi_2 - xi_3 + 1, 3))/(xi_2 + xi_3 - 1) - 1/32*(13*xi_2 + xi_3 - 1)*(1584*xi_3 + 570*std::pow(2*xi_3 - 1, 3) + 1197*std::pow(2*xi_3 - 1, 2) - 631)*(30*xi_1*std::pow(xi_2 + xi_3 - 1, 5) + 63*(-xi_2 - xi_3 + 1)*std::pow(-2*xi_1 - xi_2 - xi_3 + 1, 5) + 15*std::pow(xi_2 + xi_3 - 1, 6) + 70*std::pow(xi_2 + xi_3 - 1, 3)*std::pow(-2*xi_1 - xi_2 - xi_3 + 1, 3))/std::pow(xi_2 + xi_3 - 1, 2);
  207 => -1/64*(308*std::pow(xi_3 - 1, 2) - 105*(xi_3 - 1)*(8*xi_2 + 4*xi_3 - 4))*(304*xi_3 + 95*std::pow(2*xi_3 - 1, 2) - 93)*(30*xi_1*std::pow(xi_2 + xi_3 - 1, 5) + 15*std::pow(xi_2 + xi_3 - 1, 6) - 70*std::pow(xi_2 + xi_3 - 1, 3)*std::pow(2*xi_1 + xi_2 + xi_3 - 1, 3) + 63*(xi_2 + xi_3 - 1)*std::pow(2*xi_1 + xi_2 + xi_3 - 1, 5))/((xi_3 - 1)*(xi_2 + xi_3 - 1)) - 1/64*(304*xi_3 + 95*std::pow(2*xi_3 - 1, 2) - 93)*(308*xi_2*std::pow(xi_3 - 1, 2) + 101*std::pow(xi_3 - 1, 3) - 105*(xi_3 - 1)*std::pow(2*xi_2 + xi_3 - 1, 2))*(150*xi_1*std::pow(xi_2 + xi_3 - 1, 4) + 90*std::pow(xi_2 + xi_3 - 1, 5) - 210*std::pow(xi_2 + xi_3 - 1, 3)*std::pow(2*xi_1 + xi_2 + xi_3 - 1, 2) - 210*std::pow(xi_2 + xi_3 - 1, 2)*std::pow(2*xi_1 + xi_2 + xi_3 - 1, 3) + 315*(xi_2 + xi_3 - 1)*std::pow(2*xi_1 + xi_2 + xi_3 - 1, 4) + 63*std::pow(2*xi_1 + xi_2 + xi_3 - 1, 5))/((xi_3 - 1)*(xi_2 + xi_3 - 1)) + (1/64)*(304*xi_3 + 95*std::pow(2*xi_3 - 1, 2) - 93)*(308*xi_2*std::pow(xi_3 - 1, 2) + 101*std::pow(xi_3 - 1, 3) - 105*(xi_3 - 1)*std::pow(2*xi_2 + xi_3 - 1, 2))*(30*xi_1*std::pow(xi_2 + xi_3 - 1, 5) + 15*std::pow(xi_2 + xi_3 - 1, 6) - 70*std::pow(xi_2 + xi_3 - 1, 3)*std::pow(2*xi_1 + xi_2 + xi_3 - 1, 3) + 63*(xi_2 + xi_3 - 1)*std::pow(2*xi_1 + xi_2 + xi_3 - 1, 5))/((xi_3 - 1)*std::pow(xi_2 + xi_3 - 1, 2));
  208 => (1/8)*(20*xi_3 - 1)*(195*std::pow(xi_3 - 1, 2) - 165*(xi_3 - 1)*(8*xi_2 + 4*xi_3 - 4) + 510*std::pow(-2*xi_2 - xi_3 + 1, 2))*(30*xi_1*std::pow(xi_2 + xi_3 - 1, 5) + 63*(-xi_2 - xi_3 + 1)*std::pow(-2*xi_1 - xi_2 - xi_3 + 1, 5) + 15*std::pow(xi_2 + xi_3 - 1, 6) + 70*std::pow(xi_2 + xi_3 - 1, 3)*std::pow(-2*xi_1 - xi_2 - xi_3 + 1, 3))/(xi_2 + xi_3 - 1) + (1/8)*(20*xi_3 - 1)*(195*xi_2*std::pow(xi_3 - 1, 2) + 81*std::pow(xi_3 - 1, 3) - 165*(xi_3 - 1)*std::pow(-2*xi_2 - xi_3 + 1, 2) - 85*std::pow(-2*xi_2 - xi_3 + 1, 3))*(150*xi_1*std::pow(xi_2 + xi_3 - 1, 4) - 315*(-xi_2 - xi_3 + 1)*std::pow(-2*xi_1 - xi_2 - xi_3 + 1, 4) + 90*std::pow(xi_2 + xi_3 - 1, 5) - 210*std::pow(xi_2 + xi_3 - 1, 3)*std::pow(-2*xi_1 - xi_2 - xi_3 + 1, 2) + 210*std::pow(xi_2 + xi_3 - 1, 2)*std::pow(-2*xi_1 - xi_2 - xi_3 + 1, 3) - 63*std::pow(-2*xi_1 - xi_2 - xi_3 + 1, 5))/(xi_2 + xi_3 - 1) - 1/8*(20*xi_3 - 1)*(30*xi_1*std::pow(xi_2 + xi_3 - 1, 5) + 63*(-xi_2 - xi_3 + 1)*std::pow(-2*xi_1 - xi_2 - xi_3 + 1, 5) + 15*std::pow(xi_2 + xi_3 - 1, 6) + 70*std::pow(xi_2 + xi_3 - 1, 3)*std::pow(-2*xi_1 - xi_2 - xi_3 + 1, 3))*(195*xi_2*std::pow(xi_3 - 1, 2) + 81*std::pow(xi_3 - 1, 3) - 165*(xi_3 - 1)*std::pow(-2*xi_2 - xi_3 + 1, 2) - 85*std::pow(-2*xi_2 - xi_3 + 1, 3))/std::pow(xi_2 + xi_3 - 1, 2);
  209 => (1/32)*(30*xi_1*std::pow(xi_2 + xi_3 - 1, 5) + 63*(-xi_2 - xi_3 + 1)*std::pow(-2*xi_1 - xi_2 - xi_3 + 1, 5) + 15*std::pow(xi_2 + xi_3 - 1, 6) + 70*std::pow(xi_2 + xi_3 - 1, 3)*std::pow(-2*xi_1 - xi_2 - xi_3 + 1, 3))*(-968*std::pow(xi_3 - 1, 3) + 1734*std::pow(xi_3 - 1, 2)*(8*xi_2 + 4*xi_3 - 4) - 13464*(xi_3 - 1)*std::pow(2*xi_2 + xi_3 - 1, 2) + 7752*std::pow(2*xi_2 + xi_3 - 1, 3))/(xi_2 + xi_3 - 1) + (1/32)*(-968*xi_2*std::pow(xi_3 - 1, 3) - 455*std::pow(xi_3 - 1, 4) + 1734*std::pow(xi_3 - 1, 2)*std::pow(2*xi_2 + xi_3 - 1, 2) - 2244*(xi_3 - 1)*std::pow(2*xi_2 + xi_3 - 1, 3) + 969*std::pow(2*xi_2 + xi_3 - 1, 4))*(150*xi_1*std::pow(xi_2 + xi_3 - 1, 4) - 315*(-xi_2 - xi_3 + 1)*std::pow(-2*xi_1 - xi_2 - xi_3 + 1, 4) + 90*std::pow(xi_2 + xi_3 - 1, 5) - 210*std::pow(xi_2 + xi_3 - 1, 3)*std::pow(-2*xi_1 - xi_2 - xi_3 + 1, 2) + 210*std::pow(xi_2 + xi_3 - 1, 2)*std::pow(-2*xi_1 - xi_2 - xi_3 + 1, 3) - 63*std::pow(-2*xi_1 - xi_2 - xi_3 + 1, 5))/(xi_2 + xi_3 - 1) - 1/32*(30*xi_1*std::pow(xi_2 + xi_3 - 1, 5) + 63*(-xi_2 - xi_3 + 1)*std::pow(-2*xi_1 - xi_2 - xi_3 + 1, 5) + 15*std::pow(xi_2 + xi_3 - 1, 6) + 70*std::pow(xi_2 + xi_3 - 1, 3)*std::pow(-2*xi_1 - xi_2 - xi_3 + 1, 3))*(-968*xi_2*std::pow(xi_3 - 1, 3) - 455*std::pow(xi_3 - 1, 4) + 1734*std::pow(xi_3 - 1, 2)*std::pow(2*xi_2 + xi_3 - 1, 2) - 2244*(xi_3 - 1)*std::pow(2*xi_2 + xi_3 - 1, 3) + 969*std::pow(2*xi_2 + xi_3 - 1, 4))/std::pow(xi_2 + xi_3 - 1, 2);
  210 => (1/64)*(1584*xi_3 + 570*std::pow(2*xi_3 - 1, 3) + 1197*std::pow(2*xi_3 - 1, 2) - 631)*(-30*std::pow(xi_2 + xi_3 - 1, 5) + 105*std::pow(xi_2 + xi_3 - 1, 4)*(4*xi_1 + 2*xi_2 + 2*xi_3 - 2) + 420*std::pow(xi_2 + xi_3 - 1, 3)*std::pow(2*xi_1 + xi_2 + xi_3 - 1, 2) - 1260*std::pow(xi_2 + xi_3 - 1, 2)*std::pow(2*xi_1 + xi_2 + xi_3 - 1, 3) - 315*(2*xi_2 + 2*xi_3 - 2)*std::pow(2*xi_1 + xi_2 + xi_3 - 1, 4) + 1386*std::pow(2*xi_1 + xi_2 + xi_3 - 1, 5));
  211 => (1/32)*(15*xi_2 + xi_3 - 1)*(304*xi_3 + 95*std::pow(2*xi_3 - 1, 2) - 93)*(-30*std::pow(xi_2 + xi_3 - 1, 5) + 105*std::pow(xi_2 + xi_3 - 1, 4)*(4*xi_1 + 2*xi_2 + 2*xi_3 - 2) + 420*std::pow(xi_2 + xi_3 - 1, 3)*std::pow(2*xi_1 + xi_2 + xi_3 - 1, 2) - 1260*std::pow(xi_2 + xi_3 - 1, 2)*std::pow(2*xi_1 + xi_2 + xi_3 - 1, 3) - 315*(2*xi_2 + 2*xi_3 - 2)*std::pow(2*xi_1 + xi_2 + xi_3 - 1, 4) + 1386*std::pow(2*xi_1 + xi_2 + xi_3 - 1, 5)) + (15/32)*(304*xi_3 + 95*std::pow(2*xi_3 - 1, 2) - 93)*(-5*std::pow(xi_2 + xi_3 - 1, 6) + 105*std::pow(xi_2 + xi_3 - 1, 4)*std::pow(2*xi_1 + xi_2 + xi_3 - 1, 2) - 315*std::pow(xi_2 + xi_3 - 1, 2)*std::pow(2*xi_1 + xi_2 + xi_3 - 1, 4) + 231*std::pow(2*xi_1 + xi_2 + xi_3 - 1, 6));
  212 => (20*xi_3 - 1)*(104*std::pow(xi_3 - 1, 2) - 34*(xi_3 - 1)*(8*xi_2 + 4*xi_3 - 4))*(5*std::pow(xi_2 + xi_3 - 1, 6) - 105*std::pow(xi_2 + xi_3 - 1, 4)*std::pow(2*xi_1 + xi_2 + xi_3 - 1, 2) + 315*std::pow(xi_2 + xi_3 - 1, 2)*std::pow(2*xi_1 + xi_2 + xi_3 - 1, 4) - 231*std::pow(2*xi_1 + xi_2 + xi_3 - 1, 6))/(16*xi_3 - 16) + (20*xi_3 - 1)*(104*xi_2*std::pow(xi_3 - 1, 2) + 33*std::pow(xi_3 - 1, 3) - 34*(xi_3 - 1)*std::pow(2*xi_2 + xi_3 - 1, 2))*(30*std::pow(xi_2 + xi_3 - 1, 5) - 105*std::pow(xi_2 + xi_3 - 1, 4)*(4*xi_1 + 2*xi_2 + 2*xi_3 - 2) - 420*std::pow(xi_2 + xi_3 - 1, 3)*std::pow(2*xi_1 + xi_2 + xi_3 - 1, 2) + 1260*std::pow(xi_2 + xi_3 - 1, 2)*std::pow(2*xi_1 + xi_2 + xi_3 - 1, 3) + 315*(2*xi_2 + 2*xi_3 - 2)*std::pow(2*xi_1 + xi_2 + xi_3 - 1, 4) - 1386*std::pow(2*xi_1 + xi_2 + xi_3 - 1, 5))/(16*xi_3 - 16);
  213 => (1/128)*(-1989*std::pow(-xi_3 + 1, 2)*(8*xi_2 + 4*xi_3 - 4) - 5814*(-xi_3 + 1)*std::pow(-2*xi_2 - xi_3 + 1, 2) + 2550*std::pow(xi_3 - 1, 3))*(-5*std::pow(xi_2 + xi_3 - 1, 6) + 105*std::pow(xi_2 + xi_3 - 1, 4)*std::pow(2*xi_1 + xi_2 + xi_3 - 1, 2) - 315*std::pow(xi_2 + xi_3 - 1, 2)*std::pow(2*xi_1 + xi_2 + xi_3 - 1, 4) + 231*std::pow(2*xi_1 + xi_2 + xi_3 - 1, 6))/(xi_3 - 1) + (1/128)*(2550*xi_2*std::pow(xi_3 - 1, 3) - 1989*std::pow(-xi_3 + 1, 2)*std::pow(-2*xi_2 - xi_3 + 1, 2) + 969*(-xi_3 + 1)*std::pow(-2*xi_2 - xi_3 + 1, 3) + 1028*std::pow(xi_3 - 1, 4))*(-30*std::pow(xi_2 + xi_3 - 1, 5) + 105*std::pow(xi_2 + xi_3 - 1, 4)*(4*xi_1 + 2*xi_2 + 2*xi_3 - 2) + 420*std::pow(xi_2 + xi_3 - 1, 3)*std::pow(2*xi_1 + xi_2 + xi_3 - 1, 2) - 1260*std::pow(xi_2 + xi_3 - 1, 2)*std::pow(2*xi_1 + xi_2 + xi_3 - 1, 3) - 315*(2*xi_2 + 2*xi_3 - 2)*std::pow(2*xi_1 + xi_2 + xi_3 - 1, 4) + 1386*std::pow(2*xi_1 + xi_2 + xi_3 - 1, 5))/(xi_3 - 1);
  214 => -(304*xi_3 + 95*std::pow(2*xi_3 - 1, 2) - 93)*(490*xi_1*std::pow(xi_2 + xi_3 - 1, 6) + 280*std::pow(xi_2 + xi_3 - 1, 7) - 945*std::pow(xi_2 + xi_3 - 1, 5)*std::pow(2*xi_1 + xi_2 + xi_3 - 1, 2) - 1575*std::pow(xi_2 + xi_3 - 1, 4)*std::pow(2*xi_1 + xi_2 + xi_3 - 1, 3) + 3465*std::pow(xi_2 + xi_3 - 1, 3)*std::pow(2*xi_1 + xi_2 + xi_3 - 1, 4) + 2079*std::pow(xi_2 + xi_3 - 1, 2)*std::pow(2*xi_1 + xi_2 + xi_3 - 1, 5) - 3003*(xi_2 + xi_3 - 1)*std::pow(2*xi_1 + xi_2 + xi_3 - 1, 6) - 429*std::pow(2*xi_1 + xi_2 + xi_3 - 1, 7))/(32*xi_2 + 32*xi_3 - 32) + 32*(304*xi_3 + 95*std::pow(2*xi_3 - 1, 2) - 93)*(70*xi_1*std::pow(xi_2 + xi_3 - 1, 7) + 35*std::pow(xi_2 + xi_3 - 1, 8) - 315*std::pow(xi_2 + xi_3 - 1, 5)*std::pow(2*xi_1 + xi_2 + xi_3 - 1, 3) + 693*std::pow(xi_2 + xi_3 - 1, 3)*std::pow(2*xi_1 + xi_2 + xi_3 - 1, 5) - 429*(xi_2 + xi_3 - 1)*std::pow(2*xi_1 + xi_2 + xi_3 - 1, 7))/std::pow(32*xi_2 + 32*xi_3 - 32, 2);
  215 => -(20*xi_3 - 1)*(17*xi_2 + xi_3 - 1)*(490*xi_1*std::pow(xi_2 + xi_3 - 1, 6) + 280*std::pow(xi_2 + xi_3 - 1, 7) - 945*std::pow(xi_2 + xi_3 - 1, 5)*std::pow(2*xi_1 + xi_2 + xi_3 - 1, 2) - 1575*std::pow(xi_2 + xi_3 - 1, 4)*std::pow(2*xi_1 + xi_2 + xi_3 - 1, 3) + 3465*std::pow(xi_2 + xi_3 - 1, 3)*std::pow(2*xi_1 + xi_2 + xi_3 - 1, 4) + 2079*std::pow(xi_2 + xi_3 - 1, 2)*std::pow(2*xi_1 + xi_2 + xi_3 - 1, 5) - 3003*(xi_2 + xi_3 - 1)*std::pow(2*xi_1 + xi_2 + xi_3 - 1, 6) - 429*std::pow(2*xi_1 + xi_2 + xi_3 - 1, 7))/(16*xi_2 + 16*xi_3 - 16) - 17*(20*xi_3 - 1)*(70*xi_1*std::pow(xi_2 + xi_3 - 1, 7) + 35*std::pow(xi_2 + xi_3 - 1, 8) - 315*std::pow(xi_2 + xi_3 - 1, 5)*std::pow(2*xi_1 + xi_2 + xi_3 - 1, 3) + 693*std::pow(xi_2 + xi_3 - 1, 3)*std::pow(2*xi_1 + xi_2 + xi_3 - 1, 5) - 429*(xi_2 + xi_3 - 1)*std::pow(2*xi_1 + xi_2 + xi_3 - 1, 7))/(16*xi_2 + 16*xi_3 - 16) + 16*(20*xi_3 - 1)*(17*xi_2 + xi_3 - 1)*(70*xi_1*std::pow(xi_2 + xi_3 - 1, 7) + 35*std::pow(xi_2 + xi_3 - 1, 8) - 315*std::pow(xi_2 + xi_3 - 1, 5)*std::pow(2*xi_1 + xi_2 + xi_3 - 1, 3) + 693*std::pow(xi_2 + xi_3 - 1, 3)*std::pow(2*xi_1 + xi_2 + xi_3 - 1, 5) - 429*(xi_2 + xi_3 - 1)*std::pow(2*xi_1 + xi_2 + xi_3 - 1, 7))/std::pow(16*xi_2 + 16*xi_3 - 16, 2);
  216 => (1/64)*(171*(-xi_3 + 1)*(8*xi_2 + 4*xi_3 - 4) + 540*std::pow(xi_3 - 1, 2))*(70*xi_1*std::pow(xi_2 + xi_3 - 1, 7) + 315*std::pow(-xi_2 - xi_3 + 1, 5)*std::pow(2*xi_1 + xi_2 + xi_3 - 1, 3) + 429*(-xi_2 - xi_3 + 1)*std::pow(2*xi_1 + xi_2 + xi_3 - 1, 7) + 35*std::pow(xi_2 + xi_3 - 1, 8) + 693*std::pow(xi_2 + xi_3 - 1, 3)*std::pow(2*xi_1 + xi_2 + xi_3 - 1, 5))/((xi_3 - 1)*(xi_2 + xi_3 - 1)) + (1/64)*(540*xi_2*std::pow(xi_3 - 1, 2) + 171*(-xi_3 + 1)*std::pow(-2*xi_2 - xi_3 + 1, 2) + 167*std::pow(xi_3 - 1, 3))*(490*xi_1*std::pow(xi_2 + xi_3 - 1, 6) + 945*std::pow(-xi_2 - xi_3 + 1, 5)*std::pow(2*xi_1 + xi_2 + xi_3 - 1, 2) - 1575*std::pow(-xi_2 - xi_3 + 1, 4)*std::pow(2*xi_1 + xi_2 + xi_3 - 1, 3) + 3003*(-xi_2 - xi_3 + 1)*std::pow(2*xi_1 + xi_2 + xi_3 - 1, 6) + 280*std::pow(xi_2 + xi_3 - 1, 7) + 3465*std::pow(xi_2 + xi_3 - 1, 3)*std::pow(2*xi_1 + xi_2 + xi_3 - 1, 4) + 2079*std::pow(xi_2 + xi_3 - 1, 2)*std::pow(2*xi_1 + xi_2 + xi_3 - 1, 5) - 429*std::pow(2*xi_1 + xi_2 + xi_3 - 1, 7))/((xi_3 - 1)*(xi_2 + xi_3 - 1)) - 1/64*(540*xi_2*std::pow(xi_3 - 1, 2) + 171*(-xi_3 + 1)*std::pow(-2*xi_2 - xi_3 + 1, 2) + 167*std::pow(xi_3 - 1, 3))*(70*xi_1*std::pow(xi_2 + xi_3 - 1, 7) + 315*std::pow(-xi_2 - xi_3 + 1, 5)*std::pow(2*xi_1 + xi_2 + xi_3 - 1, 3) + 429*(-xi_2 - xi_3 + 1)*std::pow(2*xi_1 + xi_2 + xi_3 - 1, 7) + 35*std::pow(xi_2 + xi_3 - 1, 8) + 693*std::pow(xi_2 + xi_3 - 1, 3)*std::pow(2*xi_1 + xi_2 + xi_3 - 1, 5))/((xi_3 - 1)*std::pow(xi_2 + xi_3 - 1, 2));
  217 => (1/128)*(20*xi_3 - 1)*(280*std::pow(xi_2 + xi_3 - 1, 7) - 1260*std::pow(xi_2 + xi_3 - 1, 6)*(4*xi_1 + 2*xi_2 + 2*xi_3 - 2) - 7560*std::pow(xi_2 + xi_3 - 1, 5)*std::pow(2*xi_1 + xi_2 + xi_3 - 1, 2) + 27720*std::pow(xi_2 + xi_3 - 1, 4)*std::pow(2*xi_1 + xi_2 + xi_3 - 1, 3) + 27720*std::pow(xi_2 + xi_3 - 1, 3)*std::pow(2*xi_1 + xi_2 + xi_3 - 1, 4) - 72072*std::pow(xi_2 + xi_3 - 1, 2)*std::pow(2*xi_1 + xi_2 + xi_3 - 1, 5) - 12012*(2*xi_2 + 2*xi_3 - 2)*std::pow(2*xi_1 + xi_2 + xi_3 - 1, 6) + 51480*std::pow(2*xi_1 + xi_2 + xi_3 - 1, 7));
  218 => (665/128)*std::pow(xi_2 + xi_3 - 1, 8) - 5985/32*std::pow(xi_2 + xi_3 - 1, 6)*std::pow(2*xi_1 + xi_2 + xi_3 - 1, 2) + (65835/64)*std::pow(xi_2 + xi_3 - 1, 4)*std::pow(2*xi_1 + xi_2 + xi_3 - 1, 4) - 57057/32*std::pow(xi_2 + xi_3 - 1, 2)*std::pow(2*xi_1 + xi_2 + xi_3 - 1, 6) + (1/128)*(19*xi_2 + xi_3 - 1)*(280*std::pow(xi_2 + xi_3 - 1, 7) - 1260*std::pow(xi_2 + xi_3 - 1, 6)*(4*xi_1 + 2*xi_2 + 2*xi_3 - 2) - 7560*std::pow(xi_2 + xi_3 - 1, 5)*std::pow(2*xi_1 + xi_2 + xi_3 - 1, 2) + 27720*std::pow(xi_2 + xi_3 - 1, 4)*std::pow(2*xi_1 + xi_2 + xi_3 - 1, 3) + 27720*std::pow(xi_2 + xi_3 - 1, 3)*std::pow(2*xi_1 + xi_2 + xi_3 - 1, 4) - 72072*std::pow(xi_2 + xi_3 - 1, 2)*std::pow(2*xi_1 + xi_2 + xi_3 - 1, 5) - 12012*(2*xi_2 + 2*xi_3 - 2)*std::pow(2*xi_1 + xi_2 + xi_3 - 1, 6) + 51480*std::pow(2*xi_1 + xi_2 + xi_3 - 1, 7)) + (122265/128)*std::pow(2*xi_1 + xi_2 + xi_3 - 1, 8);
  219 => (1/128)*(5670*xi_1*std::pow(xi_2 + xi_3 - 1, 8) - 90090*std::pow(-xi_2 - xi_3 + 1, 5)*std::pow(-2*xi_1 - xi_2 - xi_3 + 1, 4) - 90090*std::pow(-xi_2 - xi_3 + 1, 4)*std::pow(-2*xi_1 - xi_2 - xi_3 + 1, 5) - 109395*(-xi_2 - xi_3 + 1)*std::pow(-2*xi_1 - xi_2 - xi_3 + 1, 8) + 3150*std::pow(xi_2 + xi_3 - 1, 9) - 13860*std::pow(xi_2 + xi_3 - 1, 7)*std::pow(-2*xi_1 - xi_2 - xi_3 + 1, 2) + 32340*std::pow(xi_2 + xi_3 - 1, 6)*std::pow(-2*xi_1 - xi_2 - xi_3 + 1, 3) - 180180*std::pow(xi_2 + xi_3 - 1, 3)*std::pow(-2*xi_1 - xi_2 - xi_3 + 1, 6) + 77220*std::pow(xi_2 + xi_3 - 1, 2)*std::pow(-2*xi_1 - xi_2 - xi_3 + 1, 7) - 12155*std::pow(-2*xi_1 - xi_2 - xi_3 + 1, 9))/(xi_2 + xi_3 - 1) - 1/128*(630*xi_1*std::pow(xi_2 + xi_3 - 1, 9) + 18018*std::pow(-xi_2 - xi_3 + 1, 5)*std::pow(-2*xi_1 - xi_2 - xi_3 + 1, 5) + 12155*(-xi_2 - xi_3 + 1)*std::pow(-2*xi_1 - xi_2 - xi_3 + 1, 9) + 315*std::pow(xi_2 + xi_3 - 1, 10) + 4620*std::pow(xi_2 + xi_3 - 1, 7)*std::pow(-2*xi_1 - xi_2 - xi_3 + 1, 3) + 25740*std::pow(xi_2 + xi_3 - 1, 3)*std::pow(-2*xi_1 - xi_2 - xi_3 + 1, 7))/std::pow(xi_2 + xi_3 - 1, 2);
  220 => 0;
  221 => -3591/64*xi_3 + (373065/128)*std::pow(2*xi_3 - 1, 9) + (305235/64)*std::pow(2*xi_3 - 1, 8) - 43605/32*std::pow(2*xi_3 - 1, 7) - 20349/4*std::pow(2*xi_3 - 1, 6) - 54621/64*std::pow(2*xi_3 - 1, 5) + (48195/32)*std::pow(2*xi_3 - 1, 4) + (12915/32)*std::pow(2*xi_3 - 1, 3) - 945/8*std::pow(2*xi_3 - 1, 2) + 3717/128;
  222 => -(4*std::pow(xi_3 - 1, 2) - 5*(xi_3 - 1)*(8*xi_2 + 4*xi_3 - 4))*(2640*xi_3 + 159885*std::pow(2*xi_3 - 1, 8) + 348840*std::pow(2*xi_3 - 1, 7) + 135660*std::pow(2*xi_3 - 1, 6) - 162792*std::pow(2*xi_3 - 1, 5) - 117810*std::pow(2*xi_3 - 1, 4) + 4760*std::pow(2*xi_3 - 1, 3) + 14700*std::pow(2*xi_3 - 1, 2) - 1499)/(256*xi_3 - 256);
  223 => -(30*std::pow(xi_3 - 1, 3) + 15*std::pow(xi_3 - 1, 2)*(8*xi_2 + 4*xi_3 - 4) - 210*(xi_3 - 1)*std::pow(2*xi_2 + xi_3 - 1, 2))*(182*xi_3 + 10659*std::pow(2*xi_3 - 1, 7) + 27132*std::pow(2*xi_3 - 1, 6) + 20349*std::pow(2*xi_3 - 1, 5) - 5355*std::pow(2*xi_3 - 1, 3) - 1428*std::pow(2*xi_3 - 1, 2) - 59)/(64*xi_3 - 64);
  224 => (1/512)*(24*std::pow(xi_3 - 1, 3) - 42*std::pow(xi_3 - 1, 2)*(8*xi_2 + 4*xi_3 - 4) - 168*(xi_3 - 1)*std::pow(2*xi_2 + xi_3 - 1, 2) + 504*std::pow(2*xi_2 + xi_3 - 1, 3))*(-10812*xi_3 + 74613*std::pow(2*xi_3 - 1, 6) + 203490*std::pow(2*xi_3 - 1, 5) + 188955*std::pow(2*xi_3 - 1, 4) + 58140*std::pow(2*xi_3 - 1, 3) - 6885*std::pow(2*xi_3 - 1, 2) + 5011);
  225 => (1/256)*(840*std::pow(-xi_3 + 1, 2)*std::pow(-2*xi_2 - xi_3 + 1, 3) - 2310*(-xi_3 + 1)*std::pow(-2*xi_2 - xi_3 + 1, 4) + 70*std::pow(xi_3 - 1, 5) + 70*std::pow(xi_3 - 1, 4)*(8*xi_2 + 4*xi_3 - 4) - 1260*std::pow(xi_3 - 1, 3)*std::pow(-2*xi_2 - xi_3 + 1, 2))*(3150*xi_3 + 13167*std::pow(2*xi_3 - 1, 5) + 35910*std::pow(2*xi_3 - 1, 4) + 34770*std::pow(2*xi_3 - 1, 3) + 13680*std::pow(2*xi_3 - 1, 2) - 1669)/(xi_3 - 1);
  226 => -(11704*xi_3 + 7315*std::pow(2*xi_3 - 1, 4) + 18620*std::pow(2*xi_3 - 1, 3) + 16530*std::pow(2*xi_3 - 1, 2) - 5209)*(60*std::pow(xi_3 - 1, 6) - 135*std::pow(xi_3 - 1, 5)*(8*xi_2 + 4*xi_3 - 4) - 1080*std::pow(xi_3 - 1, 4)*std::pow(2*xi_2 + xi_3 - 1, 2) + 3960*std::pow(xi_3 - 1, 3)*std::pow(2*xi_2 + xi_3 - 1, 3) + 1980*std::pow(xi_3 - 1, 2)*std::pow(2*xi_2 + xi_3 - 1, 4) - 5148*(xi_3 - 1)*std::pow(2*xi_2 + xi_3 - 1, 5))/(256*xi_3 - 256);
  227 => -(1170*xi_3 + 385*std::pow(2*xi_3 - 1, 3) + 840*std::pow(2*xi_3 - 1, 2) - 457)*(630*std::pow(xi_3 - 1, 7) + 945*std::pow(xi_3 - 1, 6)*(8*xi_2 + 4*xi_3 - 4) - 20790*std::pow(xi_3 - 1, 5)*std::pow(2*xi_2 + xi_3 - 1, 2) - 27720*std::pow(xi_3 - 1, 4)*std::pow(2*xi_2 + xi_3 - 1, 3) + 90090*std::pow(xi_3 - 1, 3)*std::pow(2*xi_2 + xi_3 - 1, 4) + 36036*std::pow(xi_3 - 1, 2)*std::pow(2*xi_2 + xi_3 - 1, 5) - 90090*(xi_3 - 1)*std::pow(2*xi_2 + xi_3 - 1, 6))/(256*xi_3 - 256);
  228 => (1/512)*(756*xi_3 + 231*std::pow(2*xi_3 - 1, 2) - 227)*(-1540*std::pow(-xi_3 + 1, 6)*(8*xi_2 + 4*xi_3 - 4) + 18480*std::pow(-xi_3 + 1, 5)*std::pow(2*xi_2 + xi_3 - 1, 2) - 240240*std::pow(-xi_3 + 1, 2)*std::pow(2*xi_2 + xi_3 - 1, 5) + 80080*(-xi_3 + 1)*std::pow(2*xi_2 + xi_3 - 1, 6) + 560*std::pow(xi_3 - 1, 7) + 80080*std::pow(xi_3 - 1, 4)*std::pow(2*xi_2 + xi_3 - 1, 3) + 80080*std::pow(xi_3 - 1, 3)*std::pow(2*xi_2 + xi_3 - 1, 4) + 194480*std::pow(2*xi_2 + xi_3 - 1, 7));
  229 => (1/256)*(22*xi_3 - 1)*(144144*std::pow(-xi_3 + 1, 6)*std::pow(-2*xi_2 - xi_3 + 1, 3) - 540540*std::pow(-xi_3 + 1, 5)*std::pow(-2*xi_2 - xi_3 + 1, 4) + 350064*std::pow(-xi_3 + 1, 2)*std::pow(-2*xi_2 - xi_3 + 1, 7) - 831402*(-xi_3 + 1)*std::pow(-2*xi_2 - xi_3 + 1, 8) + 1386*std::pow(xi_3 - 1, 9) + 2772*std::pow(xi_3 - 1, 8)*(8*xi_2 + 4*xi_3 - 4) - 72072*std::pow(xi_3 - 1, 7)*std::pow(-2*xi_2 - xi_3 + 1, 2) - 432432*std::pow(xi_3 - 1, 4)*std::pow(-2*xi_2 - xi_3 + 1, 5) - 1225224*std::pow(xi_3 - 1, 3)*std::pow(-2*xi_2 - xi_3 + 1, 6))/(xi_3 - 1);
  230 => (1/256)*(-4095*std::pow(-xi_3 + 1, 9)*(8*xi_2 + 4*xi_3 - 4) - 491400*std::pow(-xi_3 + 1, 6)*std::pow(-2*xi_2 - xi_3 + 1, 4) + 1670760*std::pow(-xi_3 + 1, 5)*std::pow(-2*xi_2 - xi_3 + 1, 5) - 755820*std::pow(-xi_3 + 1, 2)*std::pow(-2*xi_2 - xi_3 + 1, 8) + 1763580*(-xi_3 + 1)*std::pow(-2*xi_2 - xi_3 + 1, 9) - 1260*std::pow(xi_3 - 1, 10) + 65520*std::pow(xi_3 - 1, 8)*std::pow(-2*xi_2 - xi_3 + 1, 2) + 327600*std::pow(xi_3 - 1, 7)*std::pow(-2*xi_2 - xi_3 + 1, 3) + 1113840*std::pow(xi_3 - 1, 4)*std::pow(-2*xi_2 - xi_3 + 1, 6) + 3023280*std::pow(xi_3 - 1, 3)*std::pow(-2*xi_2 - xi_3 + 1, 7))/(xi_3 - 1);
  231 => -1197/64*xi_3 + (124355/128)*std::pow(2*xi_3 - 1, 9) + (101745/64)*std::pow(2*xi_3 - 1, 8) - 14535/32*std::pow(2*xi_3 - 1, 7) - 6783/4*std::pow(2*xi_3 - 1, 6) - 18207/64*std::pow(2*xi_3 - 1, 5) + (16065/32)*std::pow(2*xi_3 - 1, 4) + (4305/32)*std::pow(2*xi_3 - 1, 3) - 315/8*std::pow(2*xi_3 - 1, 2) + 1239/128;
  232 => (1/128)*(5*xi_2 + xi_3 - 1)*(2640*xi_3 + 159885*std::pow(2*xi_3 - 1, 8) + 348840*std::pow(2*xi_3 - 1, 7) + 135660*std::pow(2*xi_3 - 1, 6) - 162792*std::pow(2*xi_3 - 1, 5) - 117810*std::pow(2*xi_3 - 1, 4) + 4760*std::pow(2*xi_3 - 1, 3) + 14700*std::pow(2*xi_3 - 1, 2) - 1499) + (5/128)*(2*xi_1 + xi_2 + xi_3 - 1)*(2640*xi_3 + 159885*std::pow(2*xi_3 - 1, 8) + 348840*std::pow(2*xi_3 - 1, 7) + 135660*std::pow(2*xi_3 - 1, 6) - 162792*std::pow(2*xi_3 - 1, 5) - 117810*std::pow(2*xi_3 - 1, 4) + 4760*std::pow(2*xi_3 - 1, 3) + 14700*std::pow(2*xi_3 - 1, 2) - 1499);
  233 => -(36*std::pow(xi_3 - 1, 2) - 21*(xi_3 - 1)*(8*xi_2 + 4*xi_3 - 4))*(2*xi_1 + xi_2 + xi_3 - 1)*(182*xi_3 + 10659*std::pow(2*xi_3 - 1, 7) + 27132*std::pow(2*xi_3 - 1, 6) + 20349*std::pow(2*xi_3 - 1, 5) - 5355*std::pow(2*xi_3 - 1, 3) - 1428*std::pow(2*xi_3 - 1, 2) - 59)/(32*xi_3 - 32) - (36*xi_2*std::pow(xi_3 - 1, 2) + 17*std::pow(xi_3 - 1, 3) - 21*(xi_3 - 1)*std::pow(2*xi_2 + xi_3 - 1, 2))*(182*xi_3 + 10659*std::pow(2*xi_3 - 1, 7) + 27132*std::pow(2*xi_3 - 1, 6) + 20349*std::pow(2*xi_3 - 1, 5) - 5355*std::pow(2*xi_3 - 1, 3) - 1428*std::pow(2*xi_3 - 1, 2) - 59)/(32*xi_3 - 32);
  234 => (1/128)*(-21*(xi_3 - 1)*(8*xi_2 + 4*xi_3 - 4) + 126*std::pow(2*xi_2 + xi_3 - 1, 2))*(2*xi_1 + xi_2 + xi_3 - 1)*(-10812*xi_3 + 74613*std::pow(2*xi_3 - 1, 6) + 203490*std::pow(2*xi_3 - 1, 5) + 188955*std::pow(2*xi_3 - 1, 4) + 58140*std::pow(2*xi_3 - 1, 3) - 6885*std::pow(2*xi_3 - 1, 2) + 5011) + (1/128)*(2*std::pow(xi_3 - 1, 3) - 21*(xi_3 - 1)*std::pow(2*xi_2 + xi_3 - 1, 2) + 21*std::pow(2*xi_2 + xi_3 - 1, 3))*(-10812*xi_3 + 74613*std::pow(2*xi_3 - 1, 6) + 203490*std::pow(2*xi_3 - 1, 5) + 188955*std::pow(2*xi_3 - 1, 4) + 58140*std::pow(2*xi_3 - 1, 3) - 6885*std::pow(2*xi_3 - 1, 2) + 5011);
  235 => (1/128)*(2*xi_1 + xi_2 + xi_3 - 1)*(88*std::pow(xi_3 - 1, 3) - 18*std::pow(xi_3 - 1, 2)*(8*xi_2 + 4*xi_3 - 4) - 1080*(xi_3 - 1)*std::pow(2*xi_2 + xi_3 - 1, 2) + 1320*std::pow(2*xi_2 + xi_3 - 1, 3))*(3150*xi_3 + 13167*std::pow(2*xi_3 - 1, 5) + 35910*std::pow(2*xi_3 - 1, 4) + 34770*std::pow(2*xi_3 - 1, 3) + 13680*std::pow(2*xi_3 - 1, 2) - 1669) + (1/128)*(88*xi_2*std::pow(xi_3 - 1, 3) + 41*std::pow(xi_3 - 1, 4) - 18*std::pow(xi_3 - 1, 2)*std::pow(2*xi_2 + xi_3 - 1, 2) - 180*(xi_3 - 1)*std::pow(2*xi_2 + xi_3 - 1, 3) + 165*std::pow(2*xi_2 + xi_3 - 1, 4))*(3150*xi_3 + 13167*std::pow(2*xi_3 - 1, 5) + 35910*std::pow(2*xi_3 - 1, 4) + 34770*std::pow(2*xi_3 - 1, 3) + 13680*std::pow(2*xi_3 - 1, 2) - 1669);
  236 => (1/512)*(2*xi_1 + xi_2 + xi_3 - 1)*(11704*xi_3 + 7315*std::pow(2*xi_3 - 1, 4) + 18620*std::pow(2*xi_3 - 1, 3) + 16530*std::pow(2*xi_3 - 1, 2) - 5209)*(11880*std::pow(-xi_3 + 1, 2)*std::pow(-2*xi_2 - xi_3 + 1, 3) - 12870*(-xi_3 + 1)*std::pow(-2*xi_2 - xi_3 + 1, 4) - 90*std::pow(xi_3 - 1, 5) + 630*std::pow(xi_3 - 1, 4)*(8*xi_2 + 4*xi_3 - 4) - 1980*std::pow(xi_3 - 1, 3)*std::pow(-2*xi_2 - xi_3 + 1, 2))/(xi_3 - 1) + (1/512)*(11704*xi_3 + 7315*std::pow(2*xi_3 - 1, 4) + 18620*std::pow(2*xi_3 - 1, 3) + 16530*std::pow(2*xi_3 - 1, 2) - 5209)*(-90*xi_2*std::pow(xi_3 - 1, 5) - 70*std::pow(-xi_3 + 1, 6) - 1485*std::pow(-xi_3 + 1, 2)*std::pow(-2*xi_2 - xi_3 + 1, 4) + 1287*(-xi_3 + 1)*std::pow(-2*xi_2 - xi_3 + 1, 5) + 630*std::pow(xi_3 - 1, 4)*std::pow(-2*xi_2 - xi_3 + 1, 2) + 330*std::pow(xi_3 - 1, 3)*std::pow(-2*xi_2 - xi_3 + 1, 3))/(xi_3 - 1);
  237 => -(2*xi_1 + xi_2 + xi_3 - 1)*(1170*xi_3 + 385*std::pow(2*xi_3 - 1, 3) + 840*std::pow(2*xi_3 - 1, 2) - 457)*(780*std::pow(xi_3 - 1, 6) + 165*std::pow(xi_3 - 1, 5)*(8*xi_2 + 4*xi_3 - 4) - 22440*std::pow(xi_3 - 1, 4)*std::pow(2*xi_2 + xi_3 - 1, 2) + 17160*std::pow(xi_3 - 1, 3)*std::pow(2*xi_2 + xi_3 - 1, 3) + 60060*std::pow(xi_3 - 1, 2)*std::pow(2*xi_2 + xi_3 - 1, 4) - 60060*(xi_3 - 1)*std::pow(2*xi_2 + xi_3 - 1, 5))/(128*xi_3 - 128) - (1170*xi_3 + 385*std::pow(2*xi_3 - 1, 3) + 840*std::pow(2*xi_3 - 1, 2) - 457)*(780*xi_2*std::pow(xi_3 - 1, 6) + 365*std::pow(xi_3 - 1, 7) + 165*std::pow(xi_3 - 1, 5)*std::pow(2*xi_2 + xi_3 - 1, 2) - 3740*std::pow(xi_3 - 1, 4)*std::pow(2*xi_2 + xi_3 - 1, 3) + 2145*std::pow(xi_3 - 1, 3)*std::pow(2*xi_2 + xi_3 - 1, 4) + 6006*std::pow(xi_3 - 1, 2)*std::pow(2*xi_2 + xi_3 - 1, 5) - 5005*(xi_3 - 1)*std::pow(2*xi_2 + xi_3 - 1, 6))/(128*xi_3 - 128);
  238 => (1/128)*(756*xi_3 + 231*std::pow(2*xi_3 - 1, 2) - 227)*(2*xi_1 + xi_2 + xi_3 - 1)*(-924*std::pow(-xi_3 + 1, 6)*(8*xi_2 + 4*xi_3 - 4) + 72072*std::pow(-xi_3 + 1, 2)*std::pow(-2*xi_2 - xi_3 + 1, 5) - 68068*(-xi_3 + 1)*std::pow(-2*xi_2 - xi_3 + 1, 6) + 154*std::pow(xi_3 - 1, 7) - 40040*std::pow(xi_3 - 1, 4)*std::pow(-2*xi_2 - xi_3 + 1, 3) - 30030*std::pow(xi_3 - 1, 3)*std::pow(-2*xi_2 - xi_3 + 1, 4))/(xi_3 - 1) + (1/128)*(756*xi_3 + 231*std::pow(2*xi_3 - 1, 2) - 227)*(154*xi_2*std::pow(xi_3 - 1, 7) - 924*std::pow(-xi_3 + 1, 6)*std::pow(-2*xi_2 - xi_3 + 1, 2) - 6006*std::pow(-xi_3 + 1, 2)*std::pow(-2*xi_2 - xi_3 + 1, 6) + 4862*(-xi_3 + 1)*std::pow(-2*xi_2 - xi_3 + 1, 7) + 98*std::pow(xi_3 - 1, 8) + 5005*std::pow(xi_3 - 1, 4)*std::pow(-2*xi_2 - xi_3 + 1, 4) + 3003*std::pow(xi_3 - 1, 3)*std::pow(-2*xi_2 - xi_3 + 1, 5))/(xi_3 - 1);
  239 => (1/128)*(22*xi_3 - 1)*(2*xi_1 + xi_2 + xi_3 - 1)*(82992*std::pow(-xi_3 + 1, 5)*std::pow(2*xi_2 + xi_3 - 1, 2) - 371280*std::pow(-xi_3 + 1, 2)*std::pow(2*xi_2 + xi_3 - 1, 5) + 668304*(-xi_3 + 1)*std::pow(2*xi_2 + xi_3 - 1, 6) + 1680*std::pow(xi_3 - 1, 7) + 1092*std::pow(xi_3 - 1, 6)*(8*xi_2 + 4*xi_3 - 4) + 21840*std::pow(xi_3 - 1, 4)*std::pow(2*xi_2 + xi_3 - 1, 3) + 502320*std::pow(xi_3 - 1, 3)*std::pow(2*xi_2 + xi_3 - 1, 4) + 604656*std::pow(2*xi_2 + xi_3 - 1, 7)) + (1/128)*(22*xi_3 - 1)*(1680*xi_2*std::pow(xi_3 - 1, 7) + 13832*std::pow(-xi_3 + 1, 5)*std::pow(2*xi_2 + xi_3 - 1, 3) - 30940*std::pow(-xi_3 + 1, 2)*std::pow(2*xi_2 + xi_3 - 1, 6) + 47736*(-xi_3 + 1)*std::pow(2*xi_2 + xi_3 - 1, 7) + 791*std::pow(xi_3 - 1, 8) + 1092*std::pow(xi_3 - 1, 6)*std::pow(2*xi_2 + xi_3 - 1, 2) + 2730*std::pow(xi_3 - 1, 4)*std::pow(2*xi_2 + xi_3 - 1, 4) + 50232*std::pow(xi_3 - 1, 3)*std::pow(2*xi_2 + xi_3 - 1, 5) + 37791*std::pow(2*xi_2 + xi_3 - 1, 8));
  240 => -(2*xi_1 + xi_2 + xi_3 - 1)*(1638*std::pow(xi_3 - 1, 9) - 9828*std::pow(xi_3 - 1, 8)*(8*xi_2 + 4*xi_3 - 4) - 32760*std::pow(xi_3 - 1, 7)*std::pow(2*xi_2 + xi_3 - 1, 2) + 720720*std::pow(xi_3 - 1, 6)*std::pow(2*xi_2 + xi_3 - 1, 3) - 278460*std::pow(xi_3 - 1, 5)*std::pow(2*xi_2 + xi_3 - 1, 4) - 2895984*std::pow(xi_3 - 1, 4)*std::pow(2*xi_2 + xi_3 - 1, 5) + 2116296*std::pow(xi_3 - 1, 3)*std::pow(2*xi_2 + xi_3 - 1, 6) + 3023280*std::pow(xi_3 - 1, 2)*std::pow(2*xi_2 + xi_3 - 1, 7) - 2645370*(xi_3 - 1)*std::pow(2*xi_2 + xi_3 - 1, 8))/(256*xi_3 - 256) - (1638*xi_2*std::pow(xi_3 - 1, 9) + 966*std::pow(xi_3 - 1, 10) - 9828*std::pow(xi_3 - 1, 8)*std::pow(2*xi_2 + xi_3 - 1, 2) - 5460*std::pow(xi_3 - 1, 7)*std::pow(2*xi_2 + xi_3 - 1, 3) + 90090*std::pow(xi_3 - 1, 6)*std::pow(2*xi_2 + xi_3 - 1, 4) - 27846*std::pow(xi_3 - 1, 5)*std::pow(2*xi_2 + xi_3 - 1, 5) - 241332*std::pow(xi_3 - 1, 4)*std::pow(2*xi_2 + xi_3 - 1, 6) + 151164*std::pow(xi_3 - 1, 3)*std::pow(2*xi_2 + xi_3 - 1, 7) + 188955*std::pow(xi_3 - 1, 2)*std::pow(2*xi_2 + xi_3 - 1, 8) - 146965*(xi_3 - 1)*std::pow(2*xi_2 + xi_3 - 1, 9))/(256*xi_3 - 256);
  241 => (1/256)*(12*xi_1 + 4*xi_2 + 4*xi_3 - 4)*(2640*xi_3 + 159885*std::pow(2*xi_3 - 1, 8) + 348840*std::pow(2*xi_3 - 1, 7) + 135660*std::pow(2*xi_3 - 1, 6) - 162792*std::pow(2*xi_3 - 1, 5) - 117810*std::pow(2*xi_3 - 1, 4) + 4760*std::pow(2*xi_3 - 1, 3) + 14700*std::pow(2*xi_3 - 1, 2) - 1499);
  242 => (7/16)*(-std::pow(xi_2 + xi_3 - 1, 2) + 3*std::pow(2*xi_1 + xi_2 + xi_3 - 1, 2))*(182*xi_3 + 10659*std::pow(2*xi_3 - 1, 7) + 27132*std::pow(2*xi_3 - 1, 6) + 20349*std::pow(2*xi_3 - 1, 5) - 5355*std::pow(2*xi_3 - 1, 3) - 1428*std::pow(2*xi_3 - 1, 2) - 59) + (1/16)*(7*xi_2 + xi_3 - 1)*(12*xi_1 + 4*xi_2 + 4*xi_3 - 4)*(182*xi_3 + 10659*std::pow(2*xi_3 - 1, 7) + 27132*std::pow(2*xi_3 - 1, 6) + 20349*std::pow(2*xi_3 - 1, 5) - 5355*std::pow(2*xi_3 - 1, 3) - 1428*std::pow(2*xi_3 - 1, 2) - 59);
  243 => (20*std::pow(xi_3 - 1, 2) - 9*(xi_3 - 1)*(8*xi_2 + 4*xi_3 - 4))*(std::pow(xi_2 + xi_3 - 1, 2) - 3*std::pow(2*xi_1 + xi_2 + xi_3 - 1, 2))*(-10812*xi_3 + 74613*std::pow(2*xi_3 - 1, 6) + 203490*std::pow(2*xi_3 - 1, 5) + 188955*std::pow(2*xi_3 - 1, 4) + 58140*std::pow(2*xi_3 - 1, 3) - 6885*std::pow(2*xi_3 - 1, 2) + 5011)/(128*xi_3 - 128) + (20*xi_2*std::pow(xi_3 - 1, 2) + 8*std::pow(xi_3 - 1, 3) - 9*(xi_3 - 1)*std::pow(2*xi_2 + xi_3 - 1, 2))*(-12*xi_1 - 4*xi_2 - 4*xi_3 + 4)*(-10812*xi_3 + 74613*std::pow(2*xi_3 - 1, 6) + 203490*std::pow(2*xi_3 - 1, 5) + 188955*std::pow(2*xi_3 - 1, 4) + 58140*std::pow(2*xi_3 - 1, 3) - 6885*std::pow(2*xi_3 - 1, 2) + 5011)/(128*xi_3 - 128);
  244 => (1/256)*(-std::pow(xi_2 + xi_3 - 1, 2) + 3*std::pow(2*xi_1 + xi_2 + xi_3 - 1, 2))*(-225*std::pow(-xi_3 + 1, 2)*(8*xi_2 + 4*xi_3 - 4) - 990*(-xi_3 + 1)*std::pow(-2*xi_2 - xi_3 + 1, 2) + 126*std::pow(xi_3 - 1, 3))*(3150*xi_3 + 13167*std::pow(2*xi_3 - 1, 5) + 35910*std::pow(2*xi_3 - 1, 4) + 34770*std::pow(2*xi_3 - 1, 3) + 13680*std::pow(2*xi_3 - 1, 2) - 1669)/(xi_3 - 1) + (1/256)*(12*xi_1 + 4*xi_2 + 4*xi_3 - 4)*(126*xi_2*std::pow(xi_3 - 1, 3) - 225*std::pow(-xi_3 + 1, 2)*std::pow(-2*xi_2 - xi_3 + 1, 2) + 165*(-xi_3 + 1)*std::pow(-2*xi_2 - xi_3 + 1, 3) + 68*std::pow(xi_3 - 1, 4))*(3150*xi_3 + 13167*std::pow(2*xi_3 - 1, 5) + 35910*std::pow(2*xi_3 - 1, 4) + 34770*std::pow(2*xi_3 - 1, 3) + 13680*std::pow(2*xi_3 - 1, 2) - 1669)/(xi_3 - 1);
  245 => (1/512)*(-std::pow(xi_2 + xi_3 - 1, 2) + 3*std::pow(2*xi_1 + xi_2 + xi_3 - 1, 2))*(200*std::pow(xi_3 - 1, 3) + 330*std::pow(xi_3 - 1, 2)*(8*xi_2 + 4*xi_3 - 4) - 6600*(xi_3 - 1)*std::pow(2*xi_2 + xi_3 - 1, 2) + 5720*std::pow(2*xi_2 + xi_3 - 1, 3))*(11704*xi_3 + 7315*std::pow(2*xi_3 - 1, 4) + 18620*std::pow(2*xi_3 - 1, 3) + 16530*std::pow(2*xi_3 - 1, 2) - 5209) + (1/512)*(12*xi_1 + 4*xi_2 + 4*xi_3 - 4)*(11704*xi_3 + 7315*std::pow(2*xi_3 - 1, 4) + 18620*std::pow(2*xi_3 - 1, 3) + 16530*std::pow(2*xi_3 - 1, 2) - 5209)*(200*xi_2*std::pow(xi_3 - 1, 3) + 71*std::pow(xi_3 - 1, 4) + 330*std::pow(xi_3 - 1, 2)*std::pow(2*xi_2 + xi_3 - 1, 2) - 1100*(xi_3 - 1)*std::pow(2*xi_2 + xi_3 - 1, 3) + 715*std::pow(2*xi_2 + xi_3 - 1, 4));
  246 => (std::pow(xi_2 + xi_3 - 1, 2) - 3*std::pow(2*xi_1 + xi_2 + xi_3 - 1, 2))*(1170*xi_3 + 385*std::pow(2*xi_3 - 1, 3) + 840*std::pow(2*xi_3 - 1, 2) - 457)*(770*std::pow(xi_3 - 1, 5) - 990*std::pow(xi_3 - 1, 4)*(8*xi_2 + 4*xi_3 - 4) - 8580*std::pow(xi_3 - 1, 3)*std::pow(2*xi_2 + xi_3 - 1, 2) + 40040*std::pow(xi_3 - 1, 2)*std::pow(2*xi_2 + xi_3 - 1, 3) - 30030*(xi_3 - 1)*std::pow(2*xi_2 + xi_3 - 1, 4))/(128*xi_3 - 128) + (-12*xi_1 - 4*xi_2 - 4*xi_3 + 4)*(1170*xi_3 + 385*std::pow(2*xi_3 - 1, 3) + 840*std::pow(2*xi_3 - 1, 2) - 457)*(770*xi_2*std::pow(xi_3 - 1, 5) + 386*std::pow(xi_3 - 1, 6) - 990*std::pow(xi_3 - 1, 4)*std::pow(2*xi_2 + xi_3 - 1, 2) - 1430*std::pow(xi_3 - 1, 3)*std::pow(2*xi_2 + xi_3 - 1, 3) + 5005*std::pow(xi_3 - 1, 2)*std::pow(2*xi_2 + xi_3 - 1, 4) - 3003*(xi_3 - 1)*std::pow(2*xi_2 + xi_3 - 1, 5))/(128*xi_3 - 128);
  247 => (1/128)*(std::pow(xi_2 + xi_3 - 1, 2) - 3*std::pow(2*xi_1 + xi_2 + xi_3 - 1, 2))*(756*xi_3 + 231*std::pow(2*xi_3 - 1, 2) - 227)*(96*std::pow(xi_3 - 1, 5) + 780*std::pow(xi_3 - 1, 4)*(8*xi_2 + 4*xi_3 - 4) - 10920*std::pow(xi_3 - 1, 3)*std::pow(2*xi_2 + xi_3 - 1, 2) - 10920*std::pow(xi_3 - 1, 2)*std::pow(2*xi_2 + xi_3 - 1, 3) + 54600*(xi_3 - 1)*std::pow(2*xi_2 + xi_3 - 1, 4) - 37128*std::pow(2*xi_2 + xi_3 - 1, 5)) + (1/128)*(756*xi_3 + 231*std::pow(2*xi_3 - 1, 2) - 227)*(-12*xi_1 - 4*xi_2 - 4*xi_3 + 4)*(96*xi_2*std::pow(xi_3 - 1, 5) + 23*std::pow(xi_3 - 1, 6) + 780*std::pow(xi_3 - 1, 4)*std::pow(2*xi_2 + xi_3 - 1, 2) - 1820*std::pow(xi_3 - 1, 3)*std::pow(2*xi_2 + xi_3 - 1, 3) - 1365*std::pow(xi_3 - 1, 2)*std::pow(2*xi_2 + xi_3 - 1, 4) + 5460*(xi_3 - 1)*std::pow(2*xi_2 + xi_3 - 1, 5) - 3094*std::pow(2*xi_2 + xi_3 - 1, 6));
  248 => (1/64)*(22*xi_3 - 1)*(-std::pow(xi_2 + xi_3 - 1, 2) + 3*std::pow(2*xi_1 + xi_2 + xi_3 - 1, 2))*(-819*std::pow(-xi_3 + 1, 6)*(8*xi_2 + 4*xi_3 - 4) - 46410*std::pow(-xi_3 + 1, 3)*std::pow(-2*xi_2 - xi_3 + 1, 4) + 278460*std::pow(-xi_3 + 1, 2)*std::pow(-2*xi_2 - xi_3 + 1, 5) - 176358*(-xi_3 + 1)*std::pow(-2*xi_2 - xi_3 + 1, 6) + 910*std::pow(xi_3 - 1, 7) - 30030*std::pow(xi_3 - 1, 5)*std::pow(-2*xi_2 - xi_3 + 1, 2) - 91000*std::pow(xi_3 - 1, 4)*std::pow(-2*xi_2 - xi_3 + 1, 3))/(xi_3 - 1) + (1/64)*(22*xi_3 - 1)*(12*xi_1 + 4*xi_2 + 4*xi_3 - 4)*(910*xi_2*std::pow(xi_3 - 1, 7) - 819*std::pow(-xi_3 + 1, 6)*std::pow(-2*xi_2 - xi_3 + 1, 2) + 4641*std::pow(-xi_3 + 1, 3)*std::pow(-2*xi_2 - xi_3 + 1, 5) - 23205*std::pow(-xi_3 + 1, 2)*std::pow(-2*xi_2 - xi_3 + 1, 6) + 12597*(-xi_3 + 1)*std::pow(-2*xi_2 - xi_3 + 1, 7) + 448*std::pow(xi_3 - 1, 8) + 5005*std::pow(xi_3 - 1, 5)*std::pow(-2*xi_2 - xi_3 + 1, 3) + 11375*std::pow(xi_3 - 1, 4)*std::pow(-2*xi_2 - xi_3 + 1, 4))/(xi_3 - 1);
  249 => (1/256)*(-std::pow(xi_2 + xi_3 - 1, 2) + 3*std::pow(2*xi_1 + xi_2 + xi_3 - 1, 2))*(102480*std::pow(-xi_3 + 1, 5)*std::pow(2*xi_2 + xi_3 - 1, 2) - 447440*std::pow(-xi_3 + 1, 4)*std::pow(2*xi_2 + xi_3 - 1, 3) + 2713200*(-xi_3 + 1)*std::pow(2*xi_2 + xi_3 - 1, 6) + 112*std::pow(xi_3 - 1, 7) + 9660*std::pow(xi_3 - 1, 6)*(8*xi_2 + 4*xi_3 - 4) + 1285200*std::pow(xi_3 - 1, 3)*std::pow(2*xi_2 + xi_3 - 1, 4) + 325584*std::pow(xi_3 - 1, 2)*std::pow(2*xi_2 + xi_3 - 1, 5) + 1627920*std::pow(2*xi_2 + xi_3 - 1, 7)) + (1/256)*(12*xi_1 + 4*xi_2 + 4*xi_3 - 4)*(112*xi_2*std::pow(xi_3 - 1, 7) - 119*std::pow(-xi_3 + 1, 8) + 17080*std::pow(-xi_3 + 1, 5)*std::pow(2*xi_2 + xi_3 - 1, 3) - 55930*std::pow(-xi_3 + 1, 4)*std::pow(2*xi_2 + xi_3 - 1, 4) + 193800*(-xi_3 + 1)*std::pow(2*xi_2 + xi_3 - 1, 7) + 9660*std::pow(xi_3 - 1, 6)*std::pow(2*xi_2 + xi_3 - 1, 2) + 128520*std::pow(xi_3 - 1, 3)*std::pow(2*xi_2 + xi_3 - 1, 5) + 27132*std::pow(xi_3 - 1, 2)*std::pow(2*xi_2 + xi_3 - 1, 6) + 101745*std::pow(2*xi_2 + xi_3 - 1, 8));
  250 => -(18*xi_1*std::pow(xi_2 + xi_3 - 1, 2) + 12*std::pow(xi_2 + xi_3 - 1, 3) - 15*(xi_2 + xi_3 - 1)*std::pow(2*xi_1 + xi_2 + xi_3 - 1, 2) - 5*std::pow(2*xi_1 + xi_2 + xi_3 - 1, 3))*(182*xi_3 + 10659*std::pow(2*xi_3 - 1, 7) + 27132*std::pow(2*xi_3 - 1, 6) + 20349*std::pow(2*xi_3 - 1, 5) - 5355*std::pow(2*xi_3 - 1, 3) - 1428*std::pow(2*xi_3 - 1, 2) - 59)/(16*xi_2 + 16*xi_3 - 16) + 16*(6*xi_1*std::pow(xi_2 + xi_3 - 1, 3) + 3*std::pow(xi_2 + xi_3 - 1, 4) - 5*(xi_2 + xi_3 - 1)*std::pow(2*xi_1 + xi_2 + xi_3 - 1, 3))*(182*xi_3 + 10659*std::pow(2*xi_3 - 1, 7) + 27132*std::pow(2*xi_3 - 1, 6) + 20349*std::pow(2*xi_3 - 1, 5) - 5355*std::pow(2*xi_3 - 1, 3) - 1428*std::pow(2*xi_3 - 1, 2) - 59)/std::pow(16*xi_2 + 16*xi_3 - 16, 2);
  251 => (1/128)*(9*xi_2 + xi_3 - 1)*(18*xi_1*std::pow(xi_2 + xi_3 - 1, 2) + 15*(-xi_2 - xi_3 + 1)*std::pow(2*xi_1 + xi_2 + xi_3 - 1, 2) + 12*std::pow(xi_2 + xi_3 - 1, 3) - 5*std::pow(2*xi_1 + xi_2 + xi_3 - 1, 3))*(-10812*xi_3 + 74613*std::pow(2*xi_3 - 1, 6) + 203490*std::pow(2*xi_3 - 1, 5) + 188955*std::pow(2*xi_3 - 1, 4) + 58140*std::pow(2*xi_3 - 1, 3) - 6885*std::pow(2*xi_3 - 1, 2) + 5011)/(-xi_2 - xi_3 + 1) + (9/128)*(6*xi_1*std::pow(xi_2 + xi_3 - 1, 3) + 5*(-xi_2 - xi_3 + 1)*std::pow(2*xi_1 + xi_2 + xi_3 - 1, 3) + 3*std::pow(xi_2 + xi_3 - 1, 4))*(-10812*xi_3 + 74613*std::pow(2*xi_3 - 1, 6) + 203490*std::pow(2*xi_3 - 1, 5) + 188955*std::pow(2*xi_3 - 1, 4) + 58140*std::pow(2*xi_3 - 1, 3) - 6885*std::pow(2*xi_3 - 1, 2) + 5011)/(-xi_2 - xi_3 + 1) + (1/128)*(9*xi_2 + xi_3 - 1)*(6*xi_1*std::pow(xi_2 + xi_3 - 1, 3) + 5*(-xi_2 - xi_3 + 1)*std::pow(2*xi_1 + xi_2 + xi_3 - 1, 3) + 3*std::pow(xi_2 + xi_3 - 1, 4))*(-10812*xi_3 + 74613*std::pow(2*xi_3 - 1, 6) + 203490*std::pow(2*xi_3 - 1, 5) + 188955*std::pow(2*xi_3 - 1, 4) + 58140*std::pow(2*xi_3 - 1, 3) - 6885*std::pow(2*xi_3 - 1, 2) + 5011)/std::pow(-xi_2 - xi_3 + 1, 2);
  252 => (1/128)*(55*(-xi_3 + 1)*(8*xi_2 + 4*xi_3 - 4) + 140*std::pow(xi_3 - 1, 2))*(6*xi_1*std::pow(xi_2 + xi_3 - 1, 3) + 5*(-xi_2 - xi_3 + 1)*std::pow(2*xi_1 + xi_2 + xi_3 - 1, 3) + 3*std::pow(xi_2 + xi_3 - 1, 4))*(3150*xi_3 + 13167*std::pow(2*xi_3 - 1, 5) + 35910*std::pow(2*xi_3 - 1, 4) + 34770*std::pow(2*xi_3 - 1, 3) + 13680*std::pow(2*xi_3 - 1, 2) - 1669)/((xi_3 - 1)*(xi_2 + xi_3 - 1)) + (1/128)*(140*xi_2*std::pow(xi_3 - 1, 2) + 55*(-xi_3 + 1)*std::pow(-2*xi_2 - xi_3 + 1, 2) + 51*std::pow(xi_3 - 1, 3))*(18*xi_1*std::pow(xi_2 + xi_3 - 1, 2) + 15*(-xi_2 - xi_3 + 1)*std::pow(2*xi_1 + xi_2 + xi_3 - 1, 2) + 12*std::pow(xi_2 + xi_3 - 1, 3) - 5*std::pow(2*xi_1 + xi_2 + xi_3 - 1, 3))*(3150*xi_3 + 13167*std::pow(2*xi_3 - 1, 5) + 35910*std::pow(2*xi_3 - 1, 4) + 34770*std::pow(2*xi_3 - 1, 3) + 13680*std::pow(2*xi_3 - 1, 2) - 1669)/((xi_3 - 1)*(xi_2 + xi_3 - 1)) - 1/128*(6*xi_1*std::pow(xi_2 + xi_3 - 1, 3) + 5*(-xi_2 - xi_3 + 1)*std::pow(2*xi_1 + xi_2 + xi_3 - 1, 3) + 3*std::pow(xi_2 + xi_3 - 1, 4))*(140*xi_2*std::pow(xi_3 - 1, 2) + 55*(-xi_3 + 1)*std::pow(-2*xi_2 - xi_3 + 1, 2) + 51*std::pow(xi_3 - 1, 3))*(3150*xi_3 + 13167*std::pow(2*xi_3 - 1, 5) + 35910*std::pow(2*xi_3 - 1, 4) + 34770*std::pow(2*xi_3 - 1, 3) + 13680*std::pow(2*xi_3 - 1, 2) - 1669)/((xi_3 - 1)*std::pow(xi_2 + xi_3 - 1, 2));
  253 => -(6*xi_1*std::pow(xi_2 + xi_3 - 1, 3) + 3*std::pow(xi_2 + xi_3 - 1, 4) - 5*(xi_2 + xi_3 - 1)*std::pow(2*xi_1 + xi_2 + xi_3 - 1, 3))*(198*std::pow(xi_3 - 1, 2) - 231*(xi_3 - 1)*(8*xi_2 + 4*xi_3 - 4) + 858*std::pow(2*xi_2 + xi_3 - 1, 2))*(11704*xi_3 + 7315*std::pow(2*xi_3 - 1, 4) + 18620*std::pow(2*xi_3 - 1, 3) + 16530*std::pow(2*xi_3 - 1, 2) - 5209)/(128*xi_2 + 128*xi_3 - 128) - (18*xi_1*std::pow(xi_2 + xi_3 - 1, 2) + 12*std::pow(xi_2 + xi_3 - 1, 3) - 15*(xi_2 + xi_3 - 1)*std::pow(2*xi_1 + xi_2 + xi_3 - 1, 2) - 5*std::pow(2*xi_1 + xi_2 + xi_3 - 1, 3))*(198*xi_2*std::pow(xi_3 - 1, 2) + 92*std::pow(xi_3 - 1, 3) - 231*(xi_3 - 1)*std::pow(2*xi_2 + xi_3 - 1, 2) + 143*std::pow(2*xi_2 + xi_3 - 1, 3))*(11704*xi_3 + 7315*std::pow(2*xi_3 - 1, 4) + 18620*std::pow(2*xi_3 - 1, 3) + 16530*std::pow(2*xi_3 - 1, 2) - 5209)/(128*xi_2 + 128*xi_3 - 128) + 128*(6*xi_1*std::pow(xi_2 + xi_3 - 1, 3) + 3*std::pow(xi_2 + xi_3 - 1, 4) - 5*(xi_2 + xi_3 - 1)*std::pow(2*xi_1 + xi_2 + xi_3 - 1, 3))*(198*xi_2*std::pow(xi_3 - 1, 2) + 92*std::pow(xi_3 - 1, 3) - 231*(xi_3 - 1)*std::pow(2*xi_2 + xi_3 - 1, 2) + 143*std::pow(2*xi_2 + xi_3 - 1, 3))*(11704*xi_3 + 7315*std::pow(2*xi_3 - 1, 4) + 18620*std::pow(2*xi_3 - 1, 3) + 16530*std::pow(2*xi_3 - 1, 2) - 5209)/std::pow(128*xi_2 + 128*xi_3 - 128, 2);
  254 => (6*xi_1*std::pow(xi_2 + xi_3 - 1, 3) + 3*std::pow(xi_2 + xi_3 - 1, 4) - 5*(xi_2 + xi_3 - 1)*std::pow(2*xi_1 + xi_2 + xi_3 - 1, 3))*(1170*xi_3 + 385*std::pow(2*xi_3 - 1, 3) + 840*std::pow(2*xi_3 - 1, 2) - 457)*(168*std::pow(xi_3 - 1, 3) - 1326*std::pow(xi_3 - 1, 2)*(8*xi_2 + 4*xi_3 - 4) + 15288*(xi_3 - 1)*std::pow(2*xi_2 + xi_3 - 1, 2) - 10920*std::pow(2*xi_2 + xi_3 - 1, 3))/(64*xi_2 + 64*xi_3 - 64) + (1170*xi_3 + 385*std::pow(2*xi_3 - 1, 3) + 840*std::pow(2*xi_3 - 1, 2) - 457)*(18*xi_1*std::pow(xi_2 + xi_3 - 1, 2) + 12*std::pow(xi_2 + xi_3 - 1, 3) - 15*(xi_2 + xi_3 - 1)*std::pow(2*xi_1 + xi_2 + xi_3 - 1, 2) - 5*std::pow(2*xi_1 + xi_2 + xi_3 - 1, 3))*(168*xi_2*std::pow(xi_3 - 1, 3) + 127*std::pow(xi_3 - 1, 4) - 1326*std::pow(xi_3 - 1, 2)*std::pow(2*xi_2 + xi_3 - 1, 2) + 2548*(xi_3 - 1)*std::pow(2*xi_2 + xi_3 - 1, 3) - 1365*std::pow(2*xi_2 + xi_3 - 1, 4))/(64*xi_2 + 64*xi_3 - 64) - 64*(6*xi_1*std::pow(xi_2 + xi_3 - 1, 3) + 3*std::pow(xi_2 + xi_3 - 1, 4) - 5*(xi_2 + xi_3 - 1)*std::pow(2*xi_1 + xi_2 + xi_3 - 1, 3))*(1170*xi_3 + 385*std::pow(2*xi_3 - 1, 3) + 840*std::pow(2*xi_3 - 1, 2) - 457)*(168*xi_2*std::pow(xi_3 - 1, 3) + 127*std::pow(xi_3 - 1, 4) - 1326*std::pow(xi_3 - 1, 2)*std::pow(2*xi_2 + xi_3 - 1, 2) + 2548*(xi_3 - 1)*std::pow(2*xi_2 + xi_3 - 1, 3) - 1365*std::pow(2*xi_2 + xi_3 - 1, 4))/std::pow(64*xi_2 + 64*xi_3 - 64, 2);
  255 => (1/64)*(756*xi_3 + 231*std::pow(2*xi_3 - 1, 2) - 227)*(6*xi_1*std::pow(xi_2 + xi_3 - 1, 3) + 5*(-xi_2 - xi_3 + 1)*std::pow(2*xi_1 + xi_2 + xi_3 - 1, 3) + 3*std::pow(xi_2 + xi_3 - 1, 4))*(10920*std::pow(-xi_3 + 1, 3)*std::pow(2*xi_2 + xi_3 - 1, 2) + 15470*(-xi_3 + 1)*std::pow(2*xi_2 + xi_3 - 1, 4) + 390*std::pow(xi_3 - 1, 5) + 25480*std::pow(xi_3 - 1, 2)*std::pow(2*xi_2 + xi_3 - 1, 3))/((xi_3 - 1)*(xi_2 + xi_3 - 1)) + (1/64)*(756*xi_3 + 231*std::pow(2*xi_3 - 1, 2) - 227)*(18*xi_1*std::pow(xi_2 + xi_3 - 1, 2) + 15*(-xi_2 - xi_3 + 1)*std::pow(2*xi_1 + xi_2 + xi_3 - 1, 2) + 12*std::pow(xi_2 + xi_3 - 1, 3) - 5*std::pow(2*xi_1 + xi_2 + xi_3 - 1, 3))*(390*xi_2*std::pow(xi_3 - 1, 5) + 1820*std::pow(-xi_3 + 1, 3)*std::pow(2*xi_2 + xi_3 - 1, 3) + 1547*(-xi_3 + 1)*std::pow(2*xi_2 + xi_3 - 1, 5) + 174*std::pow(xi_3 - 1, 6) + 3185*std::pow(xi_3 - 1, 2)*std::pow(2*xi_2 + xi_3 - 1, 4))/((xi_3 - 1)*(xi_2 + xi_3 - 1)) - 1/64*(756*xi_3 + 231*std::pow(2*xi_3 - 1, 2) - 227)*(6*xi_1*std::pow(xi_2 + xi_3 - 1, 3) + 5*(-xi_2 - xi_3 + 1)*std::pow(2*xi_1 + xi_2 + xi_3 - 1, 3) + 3*std::pow(xi_2 + xi_3 - 1, 4))*(390*xi_2*std::pow(xi_3 - 1, 5) + 1820*std::pow(-xi_3 + 1, 3)*std::pow(2*xi_2 + xi_3 - 1, 3) + 1547*(-xi_3 + 1)*std::pow(2*xi_2 + xi_3 - 1, 5) + 174*std::pow(xi_3 - 1, 6) + 3185*std::pow(xi_3 - 1, 2)*std::pow(2*xi_2 + xi_3 - 1, 4))/((xi_3 - 1)*std::pow(xi_2 + xi_3 - 1, 2));
  256 => -(22*xi_3 - 1)*(6*xi_1*std::pow(xi_2 + xi_3 - 1, 3) + 3*std::pow(xi_2 + xi_3 - 1, 4) - 5*(xi_2 + xi_3 - 1)*std::pow(2*xi_1 + xi_2 + xi_3 - 1, 3))*(588*std::pow(xi_3 - 1, 5) - 1995*std::pow(xi_3 - 1, 4)*(8*xi_2 + 4*xi_3 - 4) + 5880*std::pow(xi_3 - 1, 3)*std::pow(2*xi_2 + xi_3 - 1, 2) + 71400*std::pow(xi_3 - 1, 2)*std::pow(2*xi_2 + xi_3 - 1, 3) - 149940*(xi_3 - 1)*std::pow(2*xi_2 + xi_3 - 1, 4) + 81396*std::pow(2*xi_2 + xi_3 - 1, 5))/(32*xi_2 + 32*xi_3 - 32) - (22*xi_3 - 1)*(18*xi_1*std::pow(xi_2 + xi_3 - 1, 2) + 12*std::pow(xi_2 + xi_3 - 1, 3) - 15*(xi_2 + xi_3 - 1)*std::pow(2*xi_1 + xi_2 + xi_3 - 1, 2) - 5*std::pow(2*xi_1 + xi_2 + xi_3 - 1, 3))*(588*xi_2*std::pow(xi_3 - 1, 5) + 317*std::pow(xi_3 - 1, 6) - 1995*std::pow(xi_3 - 1, 4)*std::pow(2*xi_2 + xi_3 - 1, 2) + 980*std::pow(xi_3 - 1, 3)*std::pow(2*xi_2 + xi_3 - 1, 3) + 8925*std::pow(xi_3 - 1, 2)*std::pow(2*xi_2 + xi_3 - 1, 4) - 14994*(xi_3 - 1)*std::pow(2*xi_2 + xi_3 - 1, 5) + 6783*std::pow(2*xi_2 + xi_3 - 1, 6))/(32*xi_2 + 32*xi_3 - 32) + 32*(22*xi_3 - 1)*(6*xi_1*std::pow(xi_2 + xi_3 - 1, 3) + 3*std::pow(xi_2 + xi_3 - 1, 4) - 5*(xi_2 + xi_3 - 1)*std::pow(2*xi_1 + xi_2 + xi_3 - 1, 3))*(588*xi_2*std::pow(xi_3 - 1, 5) + 317*std::pow(xi_3 - 1, 6) - 1995*std::pow(xi_3 - 1, 4)*std::pow(2*xi_2 + xi_3 - 1, 2) + 980*std::pow(xi_3 - 1, 3)*std::pow(2*xi_2 + xi_3 - 1, 3) + 8925*std::pow(xi_3 - 1, 2)*std::pow(2*xi_2 + xi_3 - 1, 4) - 14994*(xi_3 - 1)*std::pow(2*xi_2 + xi_3 - 1, 5) + 6783*std::pow(2*xi_2 + xi_3 - 1, 6))/std::pow(32*xi_2 + 32*xi_3 - 32, 2);
  257 => -1/32*(6*xi_1*std::pow(xi_2 + xi_3 - 1, 3) + 3*std::pow(xi_2 + xi_3 - 1, 4) - 5*(xi_2 + xi_3 - 1)*std::pow(2*xi_1 + xi_2 + xi_3 - 1, 3))*(630*std::pow(xi_3 - 1, 7) + 1155*std::pow(xi_3 - 1, 6)*(8*xi_2 + 4*xi_3 - 4) - 46410*std::pow(xi_3 - 1, 5)*std::pow(2*xi_2 + xi_3 - 1, 2) + 42840*std::pow(xi_3 - 1, 4)*std::pow(2*xi_2 + xi_3 - 1, 3) + 203490*std::pow(xi_3 - 1, 3)*std::pow(2*xi_2 + xi_3 - 1, 4) - 406980*std::pow(xi_3 - 1, 2)*std::pow(2*xi_2 + xi_3 - 1, 5) + 203490*(xi_3 - 1)*std::pow(2*xi_2 + xi_3 - 1, 6))/((xi_3 - 1)*(xi_2 + xi_3 - 1)) - 1/32*(18*xi_1*std::pow(xi_2 + xi_3 - 1, 2) + 12*std::pow(xi_2 + xi_3 - 1, 3) - 15*(xi_2 + xi_3 - 1)*std::pow(2*xi_1 + xi_2 + xi_3 - 1, 2) - 5*std::pow(2*xi_1 + xi_2 + xi_3 - 1, 3))*(630*xi_2*std::pow(xi_3 - 1, 7) + 272*std::pow(xi_3 - 1, 8) + 1155*std::pow(xi_3 - 1, 6)*std::pow(2*xi_2 + xi_3 - 1, 2) - 7735*std::pow(xi_3 - 1, 5)*std::pow(2*xi_2 + xi_3 - 1, 3) + 5355*std::pow(xi_3 - 1, 4)*std::pow(2*xi_2 + xi_3 - 1, 4) + 20349*std::pow(xi_3 - 1, 3)*std::pow(2*xi_2 + xi_3 - 1, 5) - 33915*std::pow(xi_3 - 1, 2)*std::pow(2*xi_2 + xi_3 - 1, 6) + 14535*(xi_3 - 1)*std::pow(2*xi_2 + xi_3 - 1, 7))/((xi_3 - 1)*(xi_2 + xi_3 - 1)) + (1/32)*(6*xi_1*std::pow(xi_2 + xi_3 - 1, 3) + 3*std::pow(xi_2 + xi_3 - 1, 4) - 5*(xi_2 + xi_3 - 1)*std::pow(2*xi_1 + xi_2 + xi_3 - 1, 3))*(630*xi_2*std::pow(xi_3 - 1, 7) + 272*std::pow(xi_3 - 1, 8) + 1155*std::pow(xi_3 - 1, 6)*std::pow(2*xi_2 + xi_3 - 1, 2) - 7735*std::pow(xi_3 - 1, 5)*std::pow(2*xi_2 + xi_3 - 1, 3) + 5355*std::pow(xi_3 - 1, 4)*std::pow(2*xi_2 + xi_3 - 1, 4) + 20349*std::pow(xi_3 - 1, 3)*std::pow(2*xi_2 + xi_3 - 1, 5) - 33915*std::pow(xi_3 - 1, 2)*std::pow(2*xi_2 + xi_3 - 1, 6) + 14535*(xi_3 - 1)*std::pow(2*xi_2 + xi_3 - 1, 7))/((xi_3 - 1)*std::pow(xi_2 + xi_3 - 1, 2));
  258 => (1/512)*(12*std::pow(xi_2 + xi_3 - 1, 3) - 30*std::pow(xi_2 + xi_3 - 1, 2)*(4*xi_1 + 2*xi_2 + 2*xi_3 - 2) - 30*(2*xi_2 + 2*xi_3 - 2)*std::pow(2*xi_1 + xi_2 + xi_3 - 1, 2) + 140*std::pow(2*xi_1 + xi_2 + xi_3 - 1, 3))*(-10812*xi_3 + 74613*std::pow(2*xi_3 - 1, 6) + 203490*std::pow(2*xi_3 - 1, 5) + 188955*std::pow(2*xi_3 - 1, 4) + 58140*std::pow(2*xi_3 - 1, 3) - 6885*std::pow(2*xi_3 - 1, 2) + 5011);
  259 => (1/128)*(11*xi_2 + xi_3 - 1)*(12*std::pow(xi_2 + xi_3 - 1, 3) - 30*std::pow(xi_2 + xi_3 - 1, 2)*(4*xi_1 + 2*xi_2 + 2*xi_3 - 2) - 30*(2*xi_2 + 2*xi_3 - 2)*std::pow(2*xi_1 + xi_2 + xi_3 - 1, 2) + 140*std::pow(2*xi_1 + xi_2 + xi_3 - 1, 3))*(3150*xi_3 + 13167*std::pow(2*xi_3 - 1, 5) + 35910*std::pow(2*xi_3 - 1, 4) + 34770*std::pow(2*xi_3 - 1, 3) + 13680*std::pow(2*xi_3 - 1, 2) - 1669) + (11/128)*(3*std::pow(xi_2 + xi_3 - 1, 4) - 30*std::pow(xi_2 + xi_3 - 1, 2)*std::pow(2*xi_1 + xi_2 + xi_3 - 1, 2) + 35*std::pow(2*xi_1 + xi_2 + xi_3 - 1, 4))*(3150*xi_3 + 13167*std::pow(2*xi_3 - 1, 5) + 35910*std::pow(2*xi_3 - 1, 4) + 34770*std::pow(2*xi_3 - 1, 3) + 13680*std::pow(2*xi_3 - 1, 2) - 1669);
  260 => -(108*std::pow(xi_3 - 1, 2) - 39*(xi_3 - 1)*(8*xi_2 + 4*xi_3 - 4))*(3*std::pow(xi_2 + xi_3 - 1, 4) - 30*std::pow(xi_2 + xi_3 - 1, 2)*std::pow(2*xi_1 + xi_2 + xi_3 - 1, 2) + 35*std::pow(2*xi_1 + xi_2 + xi_3 - 1, 4))*(11704*xi_3 + 7315*std::pow(2*xi_3 - 1, 4) + 18620*std::pow(2*xi_3 - 1, 3) + 16530*std::pow(2*xi_3 - 1, 2) - 5209)/(256*xi_3 - 256) - (108*xi_2*std::pow(xi_3 - 1, 2) + 37*std::pow(xi_3 - 1, 3) - 39*(xi_3 - 1)*std::pow(2*xi_2 + xi_3 - 1, 2))*(12*std::pow(xi_2 + xi_3 - 1, 3) - 30*std::pow(xi_2 + xi_3 - 1, 2)*(4*xi_1 + 2*xi_2 + 2*xi_3 - 2) - 30*(2*xi_2 + 2*xi_3 - 2)*std::pow(2*xi_1 + xi_2 + xi_3 - 1, 2) + 140*std::pow(2*xi_1 + xi_2 + xi_3 - 1, 3))*(11704*xi_3 + 7315*std::pow(2*xi_3 - 1, 4) + 18620*std::pow(2*xi_3 - 1, 3) + 16530*std::pow(2*xi_3 - 1, 2) - 5209)/(256*xi_3 - 256);
  261 => (1/128)*(-819*std::pow(-xi_3 + 1, 2)*(8*xi_2 + 4*xi_3 - 4) - 2730*(-xi_3 + 1)*std::pow(-2*xi_2 - xi_3 + 1, 2) + 858*std::pow(xi_3 - 1, 3))*(3*std::pow(xi_2 + xi_3 - 1, 4) - 30*std::pow(xi_2 + xi_3 - 1, 2)*std::pow(2*xi_1 + xi_2 + xi_3 - 1, 2) + 35*std::pow(2*xi_1 + xi_2 + xi_3 - 1, 4))*(1170*xi_3 + 385*std::pow(2*xi_3 - 1, 3) + 840*std::pow(2*xi_3 - 1, 2) - 457)/(xi_3 - 1) + (1/128)*(1170*xi_3 + 385*std::pow(2*xi_3 - 1, 3) + 840*std::pow(2*xi_3 - 1, 2) - 457)*(858*xi_2*std::pow(xi_3 - 1, 3) - 819*std::pow(-xi_3 + 1, 2)*std::pow(-2*xi_2 - xi_3 + 1, 2) + 455*(-xi_3 + 1)*std::pow(-2*xi_2 - xi_3 + 1, 3) + 372*std::pow(xi_3 - 1, 4))*(12*std::pow(xi_2 + xi_3 - 1, 3) - 30*std::pow(xi_2 + xi_3 - 1, 2)*(4*xi_1 + 2*xi_2 + 2*xi_3 - 2) - 30*(2*xi_2 + 2*xi_3 - 2)*std::pow(2*xi_1 + xi_2 + xi_3 - 1, 2) + 140*std::pow(2*xi_1 + xi_2 + xi_3 - 1, 3))/(xi_3 - 1);
  262 => (1/128)*(756*xi_3 + 231*std::pow(2*xi_3 - 1, 2) - 227)*(3*std::pow(xi_2 + xi_3 - 1, 4) - 30*std::pow(xi_2 + xi_3 - 1, 2)*std::pow(2*xi_1 + xi_2 + xi_3 - 1, 2) + 35*std::pow(2*xi_1 + xi_2 + xi_3 - 1, 4))*(-336*std::pow(xi_3 - 1, 3) + 840*std::pow(xi_3 - 1, 2)*(8*xi_2 + 4*xi_3 - 4) - 7560*(xi_3 - 1)*std::pow(2*xi_2 + xi_3 - 1, 2) + 4760*std::pow(2*xi_2 + xi_3 - 1, 3)) + (1/128)*(756*xi_3 + 231*std::pow(2*xi_3 - 1, 2) - 227)*(12*std::pow(xi_2 + xi_3 - 1, 3) - 30*std::pow(xi_2 + xi_3 - 1, 2)*(4*xi_1 + 2*xi_2 + 2*xi_3 - 2) - 30*(2*xi_2 + 2*xi_3 - 2)*std::pow(2*xi_1 + xi_2 + xi_3 - 1, 2) + 140*std::pow(2*xi_1 + xi_2 + xi_3 - 1, 3))*(-336*xi_2*std::pow(xi_3 - 1, 3) - 171*std::pow(xi_3 - 1, 4) + 840*std::pow(xi_3 - 1, 2)*std::pow(2*xi_2 + xi_3 - 1, 2) - 1260*(xi_3 - 1)*std::pow(2*xi_2 + xi_3 - 1, 3) + 595*std::pow(2*xi_2 + xi_3 - 1, 4));
  263 => -(22*xi_3 - 1)*(3*std::pow(xi_2 + xi_3 - 1, 4) - 30*std::pow(xi_2 + xi_3 - 1, 2)*std::pow(2*xi_1 + xi_2 + xi_3 - 1, 2) + 35*std::pow(2*xi_1 + xi_2 + xi_3 - 1, 4))*(330*std::pow(xi_3 - 1, 5) + 1170*std::pow(xi_3 - 1, 4)*(8*xi_2 + 4*xi_3 - 4) - 31620*std::pow(xi_3 - 1, 3)*std::pow(2*xi_2 + xi_3 - 1, 2) + 55080*std::pow(xi_3 - 1, 2)*std::pow(2*xi_2 + xi_3 - 1, 3) - 29070*(xi_3 - 1)*std::pow(2*xi_2 + xi_3 - 1, 4))/(64*xi_3 - 64) - (22*xi_3 - 1)*(12*std::pow(xi_2 + xi_3 - 1, 3) - 30*std::pow(xi_2 + xi_3 - 1, 2)*(4*xi_1 + 2*xi_2 + 2*xi_3 - 2) - 30*(2*xi_2 + 2*xi_3 - 2)*std::pow(2*xi_1 + xi_2 + xi_3 - 1, 2) + 140*std::pow(2*xi_1 + xi_2 + xi_3 - 1, 3))*(330*xi_2*std::pow(xi_3 - 1, 5) + 114*std::pow(xi_3 - 1, 6) + 1170*std::pow(xi_3 - 1, 4)*std::pow(2*xi_2 + xi_3 - 1, 2) - 5270*std::pow(xi_3 - 1, 3)*std::pow(2*xi_2 + xi_3 - 1, 3) + 6885*std::pow(xi_3 - 1, 2)*std::pow(2*xi_2 + xi_3 - 1, 4) - 2907*(xi_3 - 1)*std::pow(2*xi_2 + xi_3 - 1, 5))/(64*xi_3 - 64);
  264 => (1/64)*(3*std::pow(xi_2 + xi_3 - 1, 4) - 30*std::pow(xi_2 + xi_3 - 1, 2)*std::pow(2*xi_1 + xi_2 + xi_3 - 1, 2) + 35*std::pow(2*xi_1 + xi_2 + xi_3 - 1, 4))*(972*std::pow(xi_3 - 1, 5) - 1275*std::pow(xi_3 - 1, 4)*(8*xi_2 + 4*xi_3 - 4) - 18360*std::pow(xi_3 - 1, 3)*std::pow(2*xi_2 + xi_3 - 1, 2) + 116280*std::pow(xi_3 - 1, 2)*std::pow(2*xi_2 + xi_3 - 1, 3) - 174420*(xi_3 - 1)*std::pow(2*xi_2 + xi_3 - 1, 4) + 81396*std::pow(2*xi_2 + xi_3 - 1, 5)) + (1/64)*(12*std::pow(xi_2 + xi_3 - 1, 3) - 30*std::pow(xi_2 + xi_3 - 1, 2)*(4*xi_1 + 2*xi_2 + 2*xi_3 - 2) - 30*(2*xi_2 + 2*xi_3 - 2)*std::pow(2*xi_1 + xi_2 + xi_3 - 1, 2) + 140*std::pow(2*xi_1 + xi_2 + xi_3 - 1, 3))*(972*xi_2*std::pow(xi_3 - 1, 5) + 467*std::pow(xi_3 - 1, 6) - 1275*std::pow(xi_3 - 1, 4)*std::pow(2*xi_2 + xi_3 - 1, 2) - 3060*std::pow(xi_3 - 1, 3)*std::pow(2*xi_2 + xi_3 - 1, 3) + 14535*std::pow(xi_3 - 1, 2)*std::pow(2*xi_2 + xi_3 - 1, 4) - 17442*(xi_3 - 1)*std::pow(2*xi_2 + xi_3 - 1, 5) + 6783*std::pow(2*xi_2 + xi_3 - 1, 6));
  265 => (1/128)*(3150*xi_3 + 13167*std::pow(2*xi_3 - 1, 5) + 35910*std::pow(2*xi_3 - 1, 4) + 34770*std::pow(2*xi_3 - 1, 3) + 13680*std::pow(2*xi_3 - 1, 2) - 1669)*(150*xi_1*std::pow(xi_2 + xi_3 - 1, 4) - 315*(-xi_2 - xi_3 + 1)*std::pow(-2*xi_1 - xi_2 - xi_3 + 1, 4) + 90*std::pow(xi_2 + xi_3 - 1, 5) - 210*std::pow(xi_2 + xi_3 - 1, 3)*std::pow(-2*xi_1 - xi_2 - xi_3 + 1, 2) + 210*std::pow(xi_2 + xi_3 - 1, 2)*std::pow(-2*xi_1 - xi_2 - xi_3 + 1, 3) - 63*std::pow(-2*xi_1 - xi_2 - xi_3 + 1, 5))/(xi_2 + xi_3 - 1) - 1/128*(30*xi_1*std::pow(xi_2 + xi_3 - 1, 5) + 63*(-xi_2 - xi_3 + 1)*std::pow(-2*xi_1 - xi_2 - xi_3 + 1, 5) + 15*std::pow(xi_2 + xi_3 - 1, 6) + 70*std::pow(xi_2 + xi_3 - 1, 3)*std::pow(-2*xi_1 - xi_2 - xi_3 + 1, 3))*(3150*xi_3 + 13167*std::pow(2*xi_3 - 1, 5) + 35910*std::pow(2*xi_3 - 1, 4) + 34770*std::pow(2*xi_3 - 1, 3) + 13680*std::pow(2*xi_3 - 1, 2) - 1669)/std::pow(xi_2 + xi_3 - 1, 2);
  266 => (1/128)*(13*xi_2 + xi_3 - 1)*(11704*xi_3 + 7315*std::pow(2*xi_3 - 1, 4) + 18620*std::pow(2*xi_3 - 1, 3) + 16530*std::pow(2*xi_3 - 1, 2) - 5209)*(150*xi_1*std::pow(xi_2 + xi_3 - 1, 4) - 315*(-xi_2 - xi_3 + 1)*std::pow(-2*xi_1 - xi_2 - xi_3 + 1, 4) + 90*std::pow(xi_2 + xi_3 - 1, 5) - 210*std::pow(xi_2 + xi_3 - 1, 3)*std::pow(-2*xi_1 - xi_2 - xi_3 + 1, 2) + 210*std::pow(xi_2 + xi_3 - 1, 2)*std::pow(-2*xi_1 - xi_2 - xi_3 + 1, 3) - 63*std::pow(-2*xi_1 - xi_2 - xi_3 + 1, 5))/(xi_2 + xi_3 - 1) + (13/128)*(30*xi_1*std::pow(xi_2 + xi_3 - 1, 5) + 63*(-xi_2 - xi_3 + 1)*std::pow(-2*xi_1 - xi_2 - xi_3 + 1, 5) + 15*std::pow(xi_2 + xi_3 - 1, 6) + 70*std::pow(xi_2 + xi_3 - 1, 3)*std::pow(-2*xi_1 - xi_2 - xi_3 + 1, 3))*(11704*xi_3 + 7315*std::pow(2*xi_3 - 1, 4) + 18620*std::pow(2*xi_3 - 1, 3) + 16530*std::pow(2*xi_3 - 1, 2) - 5209)/(xi_2 + xi_3 - 1) - 1/128*(13*xi_2 + xi_3 - 1)*(30*xi_1*std::pow(xi_2 + xi_3 - 1, 5) + 63*(-xi_2 - xi_3 + 1)*std::pow(-2*xi_1 - xi_2 - xi_3 + 1, 5) + 15*std::pow(xi_2 + xi_3 - 1, 6) + 70*std::pow(xi_2 + xi_3 - 1, 3)*std::pow(-2*xi_1 - xi_2 - xi_3 + 1, 3))*(11704*xi_3 + 7315*std::pow(2*xi_3 - 1, 4) + 18620*std::pow(2*xi_3 - 1, 3) + 16530*std::pow(2*xi_3 - 1, 2) - 5209)/std::pow(xi_2 + xi_3 - 1, 2);
  267 => -1/64*(308*std::pow(xi_3 - 1, 2) - 105*(xi_3 - 1)*(8*xi_2 + 4*xi_3 - 4))*(1170*xi_3 + 385*std::pow(2*xi_3 - 1, 3) + 840*std::pow(2*xi_3 - 1, 2) - 457)*(30*xi_1*std::pow(xi_2 + xi_3 - 1, 5) + 15*std::pow(xi_2 + xi_3 - 1, 6) - 70*std::pow(xi_2 + xi_3 - 1, 3)*std::pow(2*xi_1 + xi_2 + xi_3 - 1, 3) + 63*(xi_2 + xi_3 - 1)*std::pow(2*xi_1 + xi_2 + xi_3 - 1, 5))/((xi_3 - 1)*(xi_2 + xi_3 - 1)) - 1/64*(308*xi_2*std::pow(xi_3 - 1, 2) + 101*std::pow(xi_3 - 1, 3) - 105*(xi_3 - 1)*std::pow(2*xi_2 + xi_3 - 1, 2))*(1170*xi_3 + 385*std::pow(2*xi_3 - 1, 3) + 840*std::pow(2*xi_3 - 1, 2) - 457)*(150*xi_1*std::pow(xi_2 + xi_3 - 1, 4) + 90*std::pow(xi_2 + xi_3 - 1, 5) - 210*std::pow(xi_2 + xi_3 - 1, 3)*std::pow(2*xi_1 + xi_2 + xi_3 - 1, 2) - 210*std::pow(xi_2 + xi_3 - 1, 2)*std::pow(2*xi_1 + xi_2 + xi_3 - 1, 3) + 315*(xi_2 + xi_3 - 1)*std::pow(2*xi_1 + xi_2 + xi_3 - 1, 4) + 63*std::pow(2*xi_1 + xi_2 + xi_3 - 1, 5))/((xi_3 - 1)*(xi_2 + xi_3 - 1)) + (1/64)*(308*xi_2*std::pow(xi_3 - 1, 2) + 101*std::pow(xi_3 - 1, 3) - 105*(xi_3 - 1)*std::pow(2*xi_2 + xi_3 - 1, 2))*(1170*xi_3 + 385*std::pow(2*xi_3 - 1, 3) + 840*std::pow(2*xi_3 - 1, 2) - 457)*(30*xi_1*std::pow(xi_2 + xi_3 - 1, 5) + 15*std::pow(xi_2 + xi_3 - 1, 6) - 70*std::pow(xi_2 + xi_3 - 1, 3)*std::pow(2*xi_1 + xi_2 + xi_3 - 1, 3) + 63*(xi_2 + xi_3 - 1)*std::pow(2*xi_1 + xi_2 + xi_3 - 1, 5))/((xi_3 - 1)*std::pow(xi_2 + xi_3 - 1, 2));
  268 => (1/32)*(756*xi_3 + 231*std::pow(2*xi_3 - 1, 2) - 227)*(195*std::pow(xi_3 - 1, 2) - 165*(xi_3 - 1)*(8*xi_2 + 4*xi_3 - 4) + 510*std::pow(-2*xi_2 - xi_3 + 1, 2))*(30*xi_1*std::pow(xi_2 + xi_3 - 1, 5) + 63*(-xi_2 - xi_3 + 1)*std::pow(-2*xi_1 - xi_2 - xi_3 + 1, 5) + 15*std::pow(xi_2 + xi_3 - 1, 6) + 70*std::pow(xi_2 + xi_3 - 1, 3)*std::pow(-2*xi_1 - xi_2 - xi_3 + 1, 3))/(xi_2 + xi_3 - 1) + (1/32)*(756*xi_3 + 231*std::pow(2*xi_3 - 1, 2) - 227)*(195*xi_2*std::pow(xi_3 - 1, 2) + 81*std::pow(xi_3 - 1, 3) - 165*(xi_3 - 1)*std::pow(-2*xi_2 - xi_3 + 1, 2) - 85*std::pow(-2*xi_2 - xi_3 + 1, 3))*(150*xi_1*std::pow(xi_2 + xi_3 - 1, 4) - 315*(-xi_2 - xi_3 + 1)*std::pow(-2*xi_1 - xi_2 - xi_3 + 1, 4) + 90*std::pow(xi_2 + xi_3 - 1, 5) - 210*std::pow(xi_2 + xi_3 - 1, 3)*std::pow(-2*xi_1 - xi_2 - xi_3 + 1, 2) + 210*std::pow(xi_2 + xi_3 - 1, 2)*std::pow(-2*xi_1 - xi_2 - xi_3 + 1, 3) - 63*std::pow(-2*xi_1 - xi_2 - xi_3 + 1, 5))/(xi_2 + xi_3 - 1) - 1/32*(756*xi_3 + 231*std::pow(2*xi_3 - 1, 2) - 227)*(30*xi_1*std::pow(xi_2 + xi_3 - 1, 5) + 63*(-xi_2 - xi_3 + 1)*std::pow(-2*xi_1 - xi_2 - xi_3 + 1, 5) + 15*std::pow(xi_2 + xi_3 - 1, 6) + 70*std::pow(xi_2 + xi_3 - 1, 3)*std::pow(-2*xi_1 - xi_2 - xi_3 + 1, 3))*(195*xi_2*std::pow(xi_3 - 1, 2) + 81*std::pow(xi_3 - 1, 3) - 165*(xi_3 - 1)*std::pow(-2*xi_2 - xi_3 + 1, 2) - 85*std::pow(-2*xi_2 - xi_3 + 1, 3))/std::pow(xi_2 + xi_3 - 1, 2);
  269 => (1/32)*(22*xi_3 - 1)*(30*xi_1*std::pow(xi_2 + xi_3 - 1, 5) + 63*(-xi_2 - xi_3 + 1)*std::pow(-2*xi_1 - xi_2 - xi_3 + 1, 5) + 15*std::pow(xi_2 + xi_3 - 1, 6) + 70*std::pow(xi_2 + xi_3 - 1, 3)*std::pow(-2*xi_1 - xi_2 - xi_3 + 1, 3))*(-968*std::pow(xi_3 - 1, 3) + 1734*std::pow(xi_3 - 1, 2)*(8*xi_2 + 4*xi_3 - 4) - 13464*(xi_3 - 1)*std::pow(2*xi_2 + xi_3 - 1, 2) + 7752*std::pow(2*xi_2 + xi_3 - 1, 3))/(xi_2 + xi_3 - 1) + (1/32)*(22*xi_3 - 1)*(-968*xi_2*std::pow(xi_3 - 1, 3) - 455*std::pow(xi_3 - 1, 4) + 1734*std::pow(xi_3 - 1, 2)*std::pow(2*xi_2 + xi_3 - 1, 2) - 2244*(xi_3 - 1)*std::pow(2*xi_2 + xi_3 - 1, 3) + 969*std::pow(2*xi_2 + xi_3 - 1, 4))*(150*xi_1*std::pow(xi_2 + xi_3 - 1, 4) - 315*(-xi_2 - xi_3 + 1)*std::pow(-2*xi_1 - xi_2 - xi_3 + 1, 4) + 90*std::pow(xi_2 + xi_3 - 1, 5) - 210*std::pow(xi_2 + xi_3 - 1, 3)*std::pow(-2*xi_1 - xi_2 - xi_3 + 1, 2) + 210*std::pow(xi_2 + xi_3 - 1, 2)*std::pow(-2*xi_1 - xi_2 - xi_3 + 1, 3) - 63*std::pow(-2*xi_1 - xi_2 - xi_3 + 1, 5))/(xi_2 + xi_3 - 1) - 1/32*(22*xi_3 - 1)*(30*xi_1*std::pow(xi_2 + xi_3 - 1, 5) + 63*(-xi_2 - xi_3 + 1)*std::pow(-2*xi_1 - xi_2 - xi_3 + 1, 5) + 15*std::pow(xi_2 + xi_3 - 1, 6) + 70*std::pow(xi_2 + xi_3 - 1, 3)*std::pow(-2*xi_1 - xi_2 - xi_3 + 1, 3))*(-968*xi_2*std::pow(xi_3 - 1, 3) - 455*std::pow(xi_3 - 1, 4) + 1734*std::pow(xi_3 - 1, 2)*std::pow(2*xi_2 + xi_3 - 1, 2) - 2244*(xi_3 - 1)*std::pow(2*xi_2 + xi_3 - 1, 3) + 969*std::pow(2*xi_2 + xi_3 - 1, 4))/std::pow(xi_2 + xi_3 - 1, 2);
  270 => (1/256)*(30*xi_1*std::pow(xi_2 + xi_3 - 1, 5) + 15*std::pow(xi_2 + xi_3 - 1, 6) - 70*std::pow(xi_2 + xi_3 - 1, 3)*std::pow(2*xi_1 + xi_2 + xi_3 - 1, 3) + 63*(xi_2 + xi_3 - 1)*std::pow(2*xi_1 + xi_2 + xi_3 - 1, 5))*(2210*std::pow(xi_3 - 1, 5) - 16830*std::pow(xi_3 - 1, 4)*(8*xi_2 + 4*xi_3 - 4) + 290700*std::pow(xi_3 - 1, 3)*std::pow(2*xi_2 + xi_3 - 1, 2) - 426360*std::pow(xi_3 - 1, 2)*std::pow(2*xi_2 + xi_3 - 1, 3) + 203490*(xi_3 - 1)*std::pow(2*xi_2 + xi_3 - 1, 4))/((xi_3 - 1)*(xi_2 + xi_3 - 1)) + (1/256)*(150*xi_1*std::pow(xi_2 + xi_3 - 1, 4) + 90*std::pow(xi_2 + xi_3 - 1, 5) - 210*std::pow(xi_2 + xi_3 - 1, 3)*std::pow(2*xi_1 + xi_2 + xi_3 - 1, 2) - 210*std::pow(xi_2 + xi_3 - 1, 2)*std::pow(2*xi_1 + xi_2 + xi_3 - 1, 3) + 315*(xi_2 + xi_3 - 1)*std::pow(2*xi_1 + xi_2 + xi_3 - 1, 4) + 63*std::pow(2*xi_1 + xi_2 + xi_3 - 1, 5))*(2210*xi_2*std::pow(xi_3 - 1, 5) + 1358*std::pow(xi_3 - 1, 6) - 16830*std::pow(xi_3 - 1, 4)*std::pow(2*xi_2 + xi_3 - 1, 2) + 48450*std::pow(xi_3 - 1, 3)*std::pow(2*xi_2 + xi_3 - 1, 3) - 53295*std::pow(xi_3 - 1, 2)*std::pow(2*xi_2 + xi_3 - 1, 4) + 20349*(xi_3 - 1)*std::pow(2*xi_2 + xi_3 - 1, 5))/((xi_3 - 1)*(xi_2 + xi_3 - 1)) - 1/256*(30*xi_1*std::pow(xi_2 + xi_3 - 1, 5) + 15*std::pow(xi_2 + xi_3 - 1, 6) - 70*std::pow(xi_2 + xi_3 - 1, 3)*std::pow(2*xi_1 + xi_2 + xi_3 - 1, 3) + 63*(xi_2 + xi_3 - 1)*std::pow(2*xi_1 + xi_2 + xi_3 - 1, 5))*(2210*xi_2*std::pow(xi_3 - 1, 5) + 1358*std::pow(xi_3 - 1, 6) - 16830*std::pow(xi_3 - 1, 4)*std::pow(2*xi_2 + xi_3 - 1, 2) + 48450*std::pow(xi_3 - 1, 3)*std::pow(2*xi_2 + xi_3 - 1, 3) - 53295*std::pow(xi_3 - 1, 2)*std::pow(2*xi_2 + xi_3 - 1, 4) + 20349*(xi_3 - 1)*std::pow(2*xi_2 + xi_3 - 1, 5))/((xi_3 - 1)*std::pow(xi_2 + xi_3 - 1, 2));
  271 => (1/256)*(11704*xi_3 + 7315*std::pow(2*xi_3 - 1, 4) + 18620*std::pow(2*xi_3 - 1, 3) + 16530*std::pow(2*xi_3 - 1, 2) - 5209)*(-30*std::pow(xi_2 + xi_3 - 1, 5) + 105*std::pow(xi_2 + xi_3 - 1, 4)*(4*xi_1 + 2*xi_2 + 2*xi_3 - 2) + 420*std::pow(xi_2 + xi_3 - 1, 3)*std::pow(2*xi_1 + xi_2 + xi_3 - 1, 2) - 1260*std::pow(xi_2 + xi_3 - 1, 2)*std::pow(2*xi_1 + xi_2 + xi_3 - 1, 3) - 315*(2*xi_2 + 2*xi_3 - 2)*std::pow(2*xi_1 + xi_2 + xi_3 - 1, 4) + 1386*std::pow(2*xi_1 + xi_2 + xi_3 - 1, 5));
  272 => (1/32)*(15*xi_2 + xi_3 - 1)*(1170*xi_3 + 385*std::pow(2*xi_3 - 1, 3) + 840*std::pow(2*xi_3 - 1, 2) - 457)*(-30*std::pow(xi_2 + xi_3 - 1, 5) + 105*std::pow(xi_2 + xi_3 - 1, 4)*(4*xi_1 + 2*xi_2 + 2*xi_3 - 2) + 420*std::pow(xi_2 + xi_3 - 1, 3)*std::pow(2*xi_1 + xi_2 + xi_3 - 1, 2) - 1260*std::pow(xi_2 + xi_3 - 1, 2)*std::pow(2*xi_1 + xi_2 + xi_3 - 1, 3) - 315*(2*xi_2 + 2*xi_3 - 2)*std::pow(2*xi_1 + xi_2 + xi_3 - 1, 4) + 1386*std::pow(2*xi_1 + xi_2 + xi_3 - 1, 5)) + (15/32)*(1170*xi_3 + 385*std::pow(2*xi_3 - 1, 3) + 840*std::pow(2*xi_3 - 1, 2) - 457)*(-5*std::pow(xi_2 + xi_3 - 1, 6) + 105*std::pow(xi_2 + xi_3 - 1, 4)*std::pow(2*xi_1 + xi_2 + xi_3 - 1, 2) - 315*std::pow(xi_2 + xi_3 - 1, 2)*std::pow(2*xi_1 + xi_2 + xi_3 - 1, 4) + 231*std::pow(2*xi_1 + xi_2 + xi_3 - 1, 6));
  273 => (104*std::pow(xi_3 - 1, 2) - 34*(xi_3 - 1)*(8*xi_2 + 4*xi_3 - 4))*(756*xi_3 + 231*std::pow(2*xi_3 - 1, 2) - 227)*(5*std::pow(xi_2 + xi_3 - 1, 6) - 105*std::pow(xi_2 + xi_3 - 1, 4)*std::pow(2*xi_1 + xi_2 + xi_3 - 1, 2) + 315*std::pow(xi_2 + xi_3 - 1, 2)*std::pow(2*xi_1 + xi_2 + xi_3 - 1, 4) - 231*std::pow(2*xi_1 + xi_2 + xi_3 - 1, 6))/(64*xi_3 - 64) + (756*xi_3 + 231*std::pow(2*xi_3 - 1, 2) - 227)*(104*xi_2*std::pow(xi_3 - 1, 2) + 33*std::pow(xi_3 - 1, 3) - 34*(xi_3 - 1)*std::pow(2*xi_2 + xi_3 - 1, 2))*(30*std::pow(xi_2 + xi_3 - 1, 5) - 105*std::pow(xi_2 + xi_3 - 1, 4)*(4*xi_1 + 2*xi_2 + 2*xi_3 - 2) - 420*std::pow(xi_2 + xi_3 - 1, 3)*std::pow(2*xi_1 + xi_2 + xi_3 - 1, 2) + 1260*std::pow(xi_2 + xi_3 - 1, 2)*std::pow(2*xi_1 + xi_2 + xi_3 - 1, 3) + 315*(2*xi_2 + 2*xi_3 - 2)*std::pow(2*xi_1 + xi_2 + xi_3 - 1, 4) - 1386*std::pow(2*xi_1 + xi_2 + xi_3 - 1, 5))/(64*xi_3 - 64);
  274 => (1/128)*(22*xi_3 - 1)*(-1989*std::pow(-xi_3 + 1, 2)*(8*xi_2 + 4*xi_3 - 4) - 5814*(-xi_3 + 1)*std::pow(-2*xi_2 - xi_3 + 1, 2) + 2550*std::pow(xi_3 - 1, 3))*(-5*std::pow(xi_2 + xi_3 - 1, 6) + 105*std::pow(xi_2 + xi_3 - 1, 4)*std::pow(2*xi_1 + xi_2 + xi_3 - 1, 2) - 315*std::pow(xi_2 + xi_3 - 1, 2)*std::pow(2*xi_1 + xi_2 + xi_3 - 1, 4) + 231*std::pow(2*xi_1 + xi_2 + xi_3 - 1, 6))/(xi_3 - 1) + (1/128)*(22*xi_3 - 1)*(2550*xi_2*std::pow(xi_3 - 1, 3) - 1989*std::pow(-xi_3 + 1, 2)*std::pow(-2*xi_2 - xi_3 + 1, 2) + 969*(-xi_3 + 1)*std::pow(-2*xi_2 - xi_3 + 1, 3) + 1028*std::pow(xi_3 - 1, 4))*(-30*std::pow(xi_2 + xi_3 - 1, 5) + 105*std::pow(xi_2 + xi_3 - 1, 4)*(4*xi_1 + 2*xi_2 + 2*xi_3 - 2) + 420*std::pow(xi_2 + xi_3 - 1, 3)*std::pow(2*xi_1 + xi_2 + xi_3 - 1, 2) - 1260*std::pow(xi_2 + xi_3 - 1, 2)*std::pow(2*xi_1 + xi_2 + xi_3 - 1, 3) - 315*(2*xi_2 + 2*xi_3 - 2)*std::pow(2*xi_1 + xi_2 + xi_3 - 1, 4) + 1386*std::pow(2*xi_1 + xi_2 + xi_3 - 1, 5))/(xi_3 - 1);
  275 => (1/256)*(-8424*std::pow(xi_3 - 1, 3) + 12654*std::pow(xi_3 - 1, 2)*(8*xi_2 + 4*xi_3 - 4) - 88920*(xi_3 - 1)*std::pow(2*xi_2 + xi_3 - 1, 2) + 47880*std::pow(2*xi_2 + xi_3 - 1, 3))*(-5*std::pow(xi_2 + xi_3 - 1, 6) + 105*std::pow(xi_2 + xi_3 - 1, 4)*std::pow(2*xi_1 + xi_2 + xi_3 - 1, 2) - 315*std::pow(xi_2 + xi_3 - 1, 2)*std::pow(2*xi_1 + xi_2 + xi_3 - 1, 4) + 231*std::pow(2*xi_1 + xi_2 + xi_3 - 1, 6)) + (1/256)*(-8424*xi_2*std::pow(xi_3 - 1, 3) - 3803*std::pow(xi_3 - 1, 4) + 12654*std::pow(xi_3 - 1, 2)*std::pow(2*xi_2 + xi_3 - 1, 2) - 14820*(xi_3 - 1)*std::pow(2*xi_2 + xi_3 - 1, 3) + 5985*std::pow(2*xi_2 + xi_3 - 1, 4))*(-30*std::pow(xi_2 + xi_3 - 1, 5) + 105*std::pow(xi_2 + xi_3 - 1, 4)*(4*xi_1 + 2*xi_2 + 2*xi_3 - 2) + 420*std::pow(xi_2 + xi_3 - 1, 3)*std::pow(2*xi_1 + xi_2 + xi_3 - 1, 2) - 1260*std::pow(xi_2 + xi_3 - 1, 2)*std::pow(2*xi_1 + xi_2 + xi_3 - 1, 3) - 315*(2*xi_2 + 2*xi_3 - 2)*std::pow(2*xi_1 + xi_2 + xi_3 - 1, 4) + 1386*std::pow(2*xi_1 + xi_2 + xi_3 - 1, 5));
  276 => -(1170*xi_3 + 385*std::pow(2*xi_3 - 1, 3) + 840*std::pow(2*xi_3 - 1, 2) - 457)*(490*xi_1*std::pow(xi_2 + xi_3 - 1, 6) + 280*std::pow(xi_2 + xi_3 - 1, 7) - 945*std::pow(xi_2 + xi_3 - 1, 5)*std::pow(2*xi_1 + xi_2 + xi_3 - 1, 2) - 1575*std::pow(xi_2 + xi_3 - 1, 4)*std::pow(2*xi_1 + xi_2 + xi_3 - 1, 3) + 3465*std::pow(xi_2 + xi_3 - 1, 3)*std::pow(2*xi_1 + xi_2 + xi_3 - 1, 4) + 2079*std::pow(xi_2 + xi_3 - 1, 2)*std::pow(2*xi_1 + xi_2 + xi_3 - 1, 5) - 3003*(xi_2 + xi_3 - 1)*std::pow(2*xi_1 + xi_2 + xi_3 - 1, 6) - 429*std::pow(2*xi_1 + xi_2 + xi_3 - 1, 7))/(32*xi_2 + 32*xi_3 - 32) + 32*(1170*xi_3 + 385*std::pow(2*xi_3 - 1, 3) + 840*std::pow(2*xi_3 - 1, 2) - 457)*(70*xi_1*std::pow(xi_2 + xi_3 - 1, 7) + 35*std::pow(xi_2 + xi_3 - 1, 8) - 315*std::pow(xi_2 + xi_3 - 1, 5)*std::pow(2*xi_1 + xi_2 + xi_3 - 1, 3) + 693*std::pow(xi_2 + xi_3 - 1, 3)*std::pow(2*xi_1 + xi_2 + xi_3 - 1, 5) - 429*(xi_2 + xi_3 - 1)*std::pow(2*xi_1 + xi_2 + xi_3 - 1, 7))/std::pow(32*xi_2 + 32*xi_3 - 32, 2);
  277 => -(17*xi_2 + xi_3 - 1)*(756*xi_3 + 231*std::pow(2*xi_3 - 1, 2) - 227)*(490*xi_1*std::pow(xi_2 + xi_3 - 1, 6) + 280*std::pow(xi_2 + xi_3 - 1, 7) - 945*std::pow(xi_2 + xi_3 - 1, 5)*std::pow(2*xi_1 + xi_2 + xi_3 - 1, 2) - 1575*std::pow(xi_2 + xi_3 - 1, 4)*std::pow(2*xi_1 + xi_2 + xi_3 - 1, 3) + 3465*std::pow(xi_2 + xi_3 - 1, 3)*std::pow(2*xi_1 + xi_2 + xi_3 - 1, 4) + 2079*std::pow(xi_2 + xi_3 - 1, 2)*std::pow(2*xi_1 + xi_2 + xi_3 - 1, 5) - 3003*(xi_2 + xi_3 - 1)*std::pow(2*xi_1 + xi_2 + xi_3 - 1, 6) - 429*std::pow(2*xi_1 + xi_2 + xi_3 - 1, 7))/(64*xi_2 + 64*xi_3 - 64) + 64*(17*xi_2 + xi_3 - 1)*(756*xi_3 + 231*std::pow(2*xi_3 - 1, 2) - 227)*(70*xi_1*std::pow(xi_2 + xi_3 - 1, 7) + 35*std::pow(xi_2 + xi_3 - 1, 8) - 315*std::pow(xi_2 + xi_3 - 1, 5)*std::pow(2*xi_1 + xi_2 + xi_3 - 1, 3) + 693*std::pow(xi_2 + xi_3 - 1, 3)*std::pow(2*xi_1 + xi_2 + xi_3 - 1, 5) - 429*(xi_2 + xi_3 - 1)*std::pow(2*xi_1 + xi_2 + xi_3 - 1, 7))/std::pow(64*xi_2 + 64*xi_3 - 64, 2) - 17*(756*xi_3 + 231*std::pow(2*xi_3 - 1, 2) - 227)*(70*xi_1*std::pow(xi_2 + xi_3 - 1, 7) + 35*std::pow(xi_2 + xi_3 - 1, 8) - 315*std::pow(xi_2 + xi_3 - 1, 5)*std::pow(2*xi_1 + xi_2 + xi_3 - 1, 3) + 693*std::pow(xi_2 + xi_3 - 1, 3)*std::pow(2*xi_1 + xi_2 + xi_3 - 1, 5) - 429*(xi_2 + xi_3 - 1)*std::pow(2*xi_1 + xi_2 + xi_3 - 1, 7))/(64*xi_2 + 64*xi_3 - 64);
  278 => (1/64)*(22*xi_3 - 1)*(171*(-xi_3 + 1)*(8*xi_2 + 4*xi_3 - 4) + 540*std::pow(xi_3 - 1, 2))*(70*xi_1*std::pow(xi_2 + xi_3 - 1, 7) + 315*std::pow(-xi_2 - xi_3 + 1, 5)*std::pow(2*xi_1 + xi_2 + xi_3 - 1, 3) + 429*(-xi_2 - xi_3 + 1)*std::pow(2*xi_1 + xi_2 + xi_3 - 1, 7) + 35*std::pow(xi_2 + xi_3 - 1, 8) + 693*std::pow(xi_2 + xi_3 - 1, 3)*std::pow(2*xi_1 + xi_2 + xi_3 - 1, 5))/((xi_3 - 1)*(xi_2 + xi_3 - 1)) + (1/64)*(22*xi_3 - 1)*(540*xi_2*std::pow(xi_3 - 1, 2) + 171*(-xi_3 + 1)*std::pow(-2*xi_2 - xi_3 + 1, 2) + 167*std::pow(xi_3 - 1, 3))*(490*xi_1*std::pow(xi_2 + xi_3 - 1, 6) + 945*std::pow(-xi_2 - xi_3 + 1, 5)*std::pow(2*xi_1 + xi_2 + xi_3 - 1, 2) - 1575*std::pow(-xi_2 - xi_3 + 1, 4)*std::pow(2*xi_1 + xi_2 + xi_3 - 1, 3) + 3003*(-xi_2 - xi_3 + 1)*std::pow(2*xi_1 + xi_2 + xi_3 - 1, 6) + 280*std::pow(xi_2 + xi_3 - 1, 7) + 3465*std::pow(xi_2 + xi_3 - 1, 3)*std::pow(2*xi_1 + xi_2 + xi_3 - 1, 4) + 2079*std::pow(xi_2 + xi_3 - 1, 2)*std::pow(2*xi_1 + xi_2 + xi_3 - 1, 5) - 429*std::pow(2*xi_1 + xi_2 + xi_3 - 1, 7))/((xi_3 - 1)*(xi_2 + xi_3 - 1)) - 1/64*(22*xi_3 - 1)*(540*xi_2*std::pow(xi_3 - 1, 2) + 171*(-xi_3 + 1)*std::pow(-2*xi_2 - xi_3 + 1, 2) + 167*std::pow(xi_3 - 1, 3))*(70*xi_1*std::pow(xi_2 + xi_3 - 1, 7) + 315*std::pow(-xi_2 - xi_3 + 1, 5)*std::pow(2*xi_1 + xi_2 + xi_3 - 1, 3) + 429*(-xi_2 - xi_3 + 1)*std::pow(2*xi_1 + xi_2 + xi_3 - 1, 7) + 35*std::pow(xi_2 + xi_3 - 1, 8) + 693*std::pow(xi_2 + xi_3 - 1, 3)*std::pow(2*xi_1 + xi_2 + xi_3 - 1, 5))/((xi_3 - 1)*std::pow(xi_2 + xi_3 - 1, 2));
  279 => -(1938*std::pow(xi_3 - 1, 2) - 1425*(xi_3 - 1)*(8*xi_2 + 4*xi_3 - 4) + 3990*std::pow(2*xi_2 + xi_3 - 1, 2))*(70*xi_1*std::pow(xi_2 + xi_3 - 1, 7) + 35*std::pow(xi_2 + xi_3 - 1, 8) - 315*std::pow(xi_2 + xi_3 - 1, 5)*std::pow(2*xi_1 + xi_2 + xi_3 - 1, 3) + 693*std::pow(xi_2 + xi_3 - 1, 3)*std::pow(2*xi_1 + xi_2 + xi_3 - 1, 5) - 429*(xi_2 + xi_3 - 1)*std::pow(2*xi_1 + xi_2 + xi_3 - 1, 7))/(64*xi_2 + 64*xi_3 - 64) - (1938*xi_2*std::pow(xi_3 - 1, 2) + 764*std::pow(xi_3 - 1, 3) - 1425*(xi_3 - 1)*std::pow(2*xi_2 + xi_3 - 1, 2) + 665*std::pow(2*xi_2 + xi_3 - 1, 3))*(490*xi_1*std::pow(xi_2 + xi_3 - 1, 6) + 280*std::pow(xi_2 + xi_3 - 1, 7) - 945*std::pow(xi_2 + xi_3 - 1, 5)*std::pow(2*xi_1 + xi_2 + xi_3 - 1, 2) - 1575*std::pow(xi_2 + xi_3 - 1, 4)*std::pow(2*xi_1 + xi_2 + xi_3 - 1, 3) + 3465*std::pow(xi_2 + xi_3 - 1, 3)*std::pow(2*xi_1 + xi_2 + xi_3 - 1, 4) + 2079*std::pow(xi_2 + xi_3 - 1, 2)*std::pow(2*xi_1 + xi_2 + xi_3 - 1, 5) - 3003*(xi_2 + xi_3 - 1)*std::pow(2*xi_1 + xi_2 + xi_3 - 1, 6) - 429*std::pow(2*xi_1 + xi_2 + xi_3 - 1, 7))/(64*xi_2 + 64*xi_3 - 64) + 64*(1938*xi_2*std::pow(xi_3 - 1, 2) + 764*std::pow(xi_3 - 1, 3) - 1425*(xi_3 - 1)*std::pow(2*xi_2 + xi_3 - 1, 2) + 665*std::pow(2*xi_2 + xi_3 - 1, 3))*(70*xi_1*std::pow(xi_2 + xi_3 - 1, 7) + 35*std::pow(xi_2 + xi_3 - 1, 8) - 315*std::pow(xi_2 + xi_3 - 1, 5)*std::pow(2*xi_1 + xi_2 + xi_3 - 1, 3) + 693*std::pow(xi_2 + xi_3 - 1, 3)*std::pow(2*xi_1 + xi_2 + xi_3 - 1, 5) - 429*(xi_2 + xi_3 - 1)*std::pow(2*xi_1 + xi_2 + xi_3 - 1, 7))/std::pow(64*xi_2 + 64*xi_3 - 64, 2);
  280 => (1/512)*(756*xi_3 + 231*std::pow(2*xi_3 - 1, 2) - 227)*(280*std::pow(xi_2 + xi_3 - 1, 7) - 1260*std::pow(xi_2 + xi_3 - 1, 6)*(4*xi_1 + 2*xi_2 + 2*xi_3 - 2) - 7560*std::pow(xi_2 + xi_3 - 1, 5)*std::pow(2*xi_1 + xi_2 + xi_3 - 1, 2) + 27720*std::pow(xi_2 + xi_3 - 1, 4)*std::pow(2*xi_1 + xi_2 + xi_3 - 1, 3) + 27720*std::pow(xi_2 + xi_3 - 1, 3)*std::pow(2*xi_1 + xi_2 + xi_3 - 1, 4) - 72072*std::pow(xi_2 + xi_3 - 1, 2)*std::pow(2*xi_1 + xi_2 + xi_3 - 1, 5) - 12012*(2*xi_2 + 2*xi_3 - 2)*std::pow(2*xi_1 + xi_2 + xi_3 - 1, 6) + 51480*std::pow(2*xi_1 + xi_2 + xi_3 - 1, 7));
  281 => (1/128)*(22*xi_3 - 1)*(19*xi_2 + xi_3 - 1)*(280*std::pow(xi_2 + xi_3 - 1, 7) - 1260*std::pow(xi_2 + xi_3 - 1, 6)*(4*xi_1 + 2*xi_2 + 2*xi_3 - 2) - 7560*std::pow(xi_2 + xi_3 - 1, 5)*std::pow(2*xi_1 + xi_2 + xi_3 - 1, 2) + 27720*std::pow(xi_2 + xi_3 - 1, 4)*std::pow(2*xi_1 + xi_2 + xi_3 - 1, 3) + 27720*std::pow(xi_2 + xi_3 - 1, 3)*std::pow(2*xi_1 + xi_2 + xi_3 - 1, 4) - 72072*std::pow(xi_2 + xi_3 - 1, 2)*std::pow(2*xi_1 + xi_2 + xi_3 - 1, 5) - 12012*(2*xi_2 + 2*xi_3 - 2)*std::pow(2*xi_1 + xi_2 + xi_3 - 1, 6) + 51480*std::pow(2*xi_1 + xi_2 + xi_3 - 1, 7)) + (19/128)*(22*xi_3 - 1)*(35*std::pow(xi_2 + xi_3 - 1, 8) - 1260*std::pow(xi_2 + xi_3 - 1, 6)*std::pow(2*xi_1 + xi_2 + xi_3 - 1, 2) + 6930*std::pow(xi_2 + xi_3 - 1, 4)*std::pow(2*xi_1 + xi_2 + xi_3 - 1, 4) - 12012*std::pow(xi_2 + xi_3 - 1, 2)*std::pow(2*xi_1 + xi_2 + xi_3 - 1, 6) + 6435*std::pow(2*xi_1 + xi_2 + xi_3 - 1, 8));
  282 => -(340*std::pow(xi_3 - 1, 2) - 105*(xi_3 - 1)*(8*xi_2 + 4*xi_3 - 4))*(35*std::pow(xi_2 + xi_3 - 1, 8) - 1260*std::pow(xi_2 + xi_3 - 1, 6)*std::pow(2*xi_1 + xi_2 + xi_3 - 1, 2) + 6930*std::pow(xi_2 + xi_3 - 1, 4)*std::pow(2*xi_1 + xi_2 + xi_3 - 1, 4) - 12012*std::pow(xi_2 + xi_3 - 1, 2)*std::pow(2*xi_1 + xi_2 + xi_3 - 1, 6) + 6435*std::pow(2*xi_1 + xi_2 + xi_3 - 1, 8))/(256*xi_3 - 256) - (340*xi_2*std::pow(xi_3 - 1, 2) + 103*std::pow(xi_3 - 1, 3) - 105*(xi_3 - 1)*std::pow(2*xi_2 + xi_3 - 1, 2))*(280*std::pow(xi_2 + xi_3 - 1, 7) - 1260*std::pow(xi_2 + xi_3 - 1, 6)*(4*xi_1 + 2*xi_2 + 2*xi_3 - 2) - 7560*std::pow(xi_2 + xi_3 - 1, 5)*std::pow(2*xi_1 + xi_2 + xi_3 - 1, 2) + 27720*std::pow(xi_2 + xi_3 - 1, 4)*std::pow(2*xi_1 + xi_2 + xi_3 - 1, 3) + 27720*std::pow(xi_2 + xi_3 - 1, 3)*std::pow(2*xi_1 + xi_2 + xi_3 - 1, 4) - 72072*std::pow(xi_2 + xi_3 - 1, 2)*std::pow(2*xi_1 + xi_2 + xi_3 - 1, 5) - 12012*(2*xi_2 + 2*xi_3 - 2)*std::pow(2*xi_1 + xi_2 + xi_3 - 1, 6) + 51480*std::pow(2*xi_1 + xi_2 + xi_3 - 1, 7))/(256*xi_3 - 256);
  283 => (1/128)*(22*xi_3 - 1)*(5670*xi_1*std::pow(xi_2 + xi_3 - 1, 8) - 90090*std::pow(-xi_2 - xi_3 + 1, 5)*std::pow(-2*xi_1 - xi_2 - xi_3 + 1, 4) - 90090*std::pow(-xi_2 - xi_3 + 1, 4)*std::pow(-2*xi_1 - xi_2 - xi_3 + 1, 5) - 109395*(-xi_2 - xi_3 + 1)*std::pow(-2*xi_1 - xi_2 - xi_3 + 1, 8) + 3150*std::pow(xi_2 + xi_3 - 1, 9) - 13860*std::pow(xi_2 + xi_3 - 1, 7)*std::pow(-2*xi_1 - xi_2 - xi_3 + 1, 2) + 32340*std::pow(xi_2 + xi_3 - 1, 6)*std::pow(-2*xi_1 - xi_2 - xi_3 + 1, 3) - 180180*std::pow(xi_2 + xi_3 - 1, 3)*std::pow(-2*xi_1 - xi_2 - xi_3 + 1, 6) + 77220*std::pow(xi_2 + xi_3 - 1, 2)*std::pow(-2*xi_1 - xi_2 - xi_3 + 1, 7) - 12155*std::pow(-2*xi_1 - xi_2 - xi_3 + 1, 9))/(xi_2 + xi_3 - 1) - 1/128*(22*xi_3 - 1)*(630*xi_1*std::pow(xi_2 + xi_3 - 1, 9) + 18018*std::pow(-xi_2 - xi_3 + 1, 5)*std::pow(-2*xi_1 - xi_2 - xi_3 + 1, 5) + 12155*(-xi_2 - xi_3 + 1)*std::pow(-2*xi_1 - xi_2 - xi_3 + 1, 9) + 315*std::pow(xi_2 + xi_3 - 1, 10) + 4620*std::pow(xi_2 + xi_3 - 1, 7)*std::pow(-2*xi_1 - xi_2 - xi_3 + 1, 3) + 25740*std::pow(xi_2 + xi_3 - 1, 3)*std::pow(-2*xi_1 - xi_2 - xi_3 + 1, 7))/std::pow(xi_2 + xi_3 - 1, 2);
  284 => (1/128)*(21*xi_2 + xi_3 - 1)*(5670*xi_1*std::pow(xi_2 + xi_3 - 1, 8) - 90090*std::pow(-xi_2 - xi_3 + 1, 5)*std::pow(-2*xi_1 - xi_2 - xi_3 + 1, 4) - 90090*std::pow(-xi_2 - xi_3 + 1, 4)*std::pow(-2*xi_1 - xi_2 - xi_3 + 1, 5) - 109395*(-xi_2 - xi_3 + 1)*std::pow(-2*xi_1 - xi_2 - xi_3 + 1, 8) + 3150*std::pow(xi_2 + xi_3 - 1, 9) - 13860*std::pow(xi_2 + xi_3 - 1, 7)*std::pow(-2*xi_1 - xi_2 - xi_3 + 1, 2) + 32340*std::pow(xi_2 + xi_3 - 1, 6)*std::pow(-2*xi_1 - xi_2 - xi_3 + 1, 3) - 180180*std::pow(xi_2 + xi_3 - 1, 3)*std::pow(-2*xi_1 - xi_2 - xi_3 + 1, 6) + 77220*std::pow(xi_2 + xi_3 - 1, 2)*std::pow(-2*xi_1 - xi_2 - xi_3 + 1, 7) - 12155*std::pow(-2*xi_1 - xi_2 - xi_3 + 1, 9))/(xi_2 + xi_3 - 1) + (21/128)*(630*xi_1*std::pow(xi_2 + xi_3 - 1, 9) + 18018*std::pow(-xi_2 - xi_3 + 1, 5)*std::pow(-2*xi_1 - xi_2 - xi_3 + 1, 5) + 12155*(-xi_2 - xi_3 + 1)*std::pow(-2*xi_1 - xi_2 - xi_3 + 1, 9) + 315*std::pow(xi_2 + xi_3 - 1, 10) + 4620*std::pow(xi_2 + xi_3 - 1, 7)*std::pow(-2*xi_1 - xi_2 - xi_3 + 1, 3) + 25740*std::pow(xi_2 + xi_3 - 1, 3)*std::pow(-2*xi_1 - xi_2 - xi_3 + 1, 7))/(xi_2 + xi_3 - 1) - 1/128*(21*xi_2 + xi_3 - 1)*(630*xi_1*std::pow(xi_2 + xi_3 - 1, 9) + 18018*std::pow(-xi_2 - xi_3 + 1, 5)*std::pow(-2*xi_1 - xi_2 - xi_3 + 1, 5) + 12155*(-xi_2 - xi_3 + 1)*std::pow(-2*xi_1 - xi_2 - xi_3 + 1, 9) + 315*std::pow(xi_2 + xi_3 - 1, 10) + 4620*std::pow(xi_2 + xi_3 - 1, 7)*std::pow(-2*xi_1 - xi_2 - xi_3 + 1, 3) + 25740*std::pow(xi_2 + xi_3 - 1, 3)*std::pow(-2*xi_1 - xi_2 - xi_3 + 1, 7))/std::pow(xi_2 + xi_3 - 1, 2);
  285 => -315/128*std::pow(xi_2 + xi_3 - 1, 9) + (3465/256)*std::pow(xi_2 + xi_3 - 1, 8)*(4*xi_1 + 2*xi_2 + 2*xi_3 - 2) + (3465/32)*std::pow(xi_2 + xi_3 - 1, 7)*std::pow(2*xi_1 + xi_2 + xi_3 - 1, 2) - 15015/32*std::pow(xi_2 + xi_3 - 1, 6)*std::pow(2*xi_1 + xi_2 + xi_3 - 1, 3) - 45045/64*std::pow(xi_2 + xi_3 - 1, 5)*std::pow(2*xi_1 + xi_2 + xi_3 - 1, 4) + (135135/64)*std::pow(xi_2 + xi_3 - 1, 4)*std::pow(2*xi_1 + xi_2 + xi_3 - 1, 5) + (45045/32)*std::pow(xi_2 + xi_3 - 1, 3)*std::pow(2*xi_1 + xi_2 + xi_3 - 1, 6) - 109395/32*std::pow(xi_2 + xi_3 - 1, 2)*std::pow(2*xi_1 + xi_2 + xi_3 - 1, 7) - 109395/256*(2*xi_2 + 2*xi_3 - 2)*std::pow(2*xi_1 + xi_2 + xi_3 - 1, 8) + (230945/128)*std::pow(2*xi_1 + xi_2 + xi_3 - 1, 9);
}

end Edge.Basis
