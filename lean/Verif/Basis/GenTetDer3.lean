import Verif.Basis.Expr
/-!
Text of the derivatives of the basis functions of tetrahedra.
-/
namespace Edge.Basis

set_option maxRecDepth 10000

/-- Derivatives with respect to the coordinate 3 of the basis of tetrahedra (src/dg/generated/basis_tet_der_xi3.inc:24-882): the right-hand sides for `b` = 0, ..., 285. Literals `n.0L` are written `n`. -/
def tetDer3 : List Ex := exs% {
  0 => 0;
  1 => 4;
  2 => 1;
  3 => 1;
  4 => 30*xi_3 - 10;
  5 => 18*xi_2 + 12*xi_3 - 7;
  6 => 8*xi_2 + 2*xi_3 - 2;
  7 => 12*xi_1 + 6*xi_2 + 12*xi_3 - 7;
  8 => 2*xi_1 + 6*xi_2 + 2*xi_3 - 2;
  9 => 6*xi_1 + 2*xi_2 + 2*xi_3 - 2;
  10 => 168*std::pow(xi_3, 2) - 126*xi_3 + 18;
  11 => 14*xi_3 + 7*std::pow(2*xi_3 - 1, 2) + (56*xi_3 - 14)*(3*xi_2 + xi_3 - 1) - 6;
  12 => -(8*xi_3 - 1)*(4*xi_2*(2*xi_3 - 2) + 9*std::pow(xi_3 - 1, 2) - 5*(xi_3 - 1)*(4*xi_2 + 2*xi_3 - 2) - 5*std::pow(2*xi_2 + xi_3 - 1, 2))/(2*xi_3 - 2) - 8*(4*xi_2*std::pow(xi_3 - 1, 2) + 3*std::pow(xi_3 - 1, 3) - 5*(xi_3 - 1)*std::pow(2*xi_2 + xi_3 - 1, 2))/(2*xi_3 - 2) + 2*(8*xi_3 - 1)*(4*xi_2*std::pow(xi_3 - 1, 2) + 3*std::pow(xi_3 - 1, 3) - 5*(xi_3 - 1)*std::pow(2*xi_2 + xi_3 - 1, 2))/std::pow(2*xi_3 - 2, 2);
  13 => 45*std::pow(xi_2, 2) + 30*xi_2*xi_3 - 30*xi_2 + 3*std::pow(xi_3, 2) - 6*xi_3 + 3;
  14 => 14*xi_3 + 7*std::pow(2*xi_3 - 1, 2) + (56*xi_3 - 14)*(2*xi_1 + xi_2 + xi_3 - 1) - 6;
  15 => (8*xi_3 - 1)*(5*xi_2 + xi_3 - 1) + (8*xi_3 - 1)*(2*xi_1 + xi_2 + xi_3 - 1) + 8*(5*xi_2 + xi_3 - 1)*(2*xi_1 + xi_2 + xi_3 - 1);
  16 => -(36*xi_2*std::pow(xi_3 - 1, 2) + 17*std::pow(xi_3 - 1, 3) - 21*(xi_3 - 1)*std::pow(2*xi_2 + xi_3 - 1, 2))/(4*xi_3 - 4) - (2*xi_1 + xi_2 + xi_3 - 1)*(36*xi_2*(2*xi_3 - 2) + 51*std::pow(xi_3 - 1, 2) - 21*(xi_3 - 1)*(4*xi_2 + 2*xi_3 - 2) - 21*std::pow(2*xi_2 + xi_3 - 1, 2))/(4*xi_3 - 4) + 4*(36*xi_2*std::pow(xi_3 - 1, 2) + 17*std::pow(xi_3 - 1, 3) - 21*(xi_3 - 1)*std::pow(2*xi_2 + xi_3 - 1, 2))*(2*xi_1 + xi_2 + xi_3 - 1)/std::pow(4*xi_3 - 4, 2);
  17 => (1/2)*(8*xi_3 - 1)*(12*xi_1 + 4*xi_2 + 4*xi_3 - 4) - 4*std::pow(xi_2 + xi_3 - 1, 2) + 12*std::pow(2*xi_1 + xi_2 + xi_3 - 1, 2);
  18 => -1/2*std::pow(xi_2 + xi_3 - 1, 2) + (1/2)*(7*xi_2 + xi_3 - 1)*(12*xi_1 + 4*xi_2 + 4*xi_3 - 4) + (3/2)*std::pow(2*xi_1 + xi_2 + xi_3 - 1, 2);
  19 => -(18*xi_1*std::pow(xi_2 + xi_3 - 1, 2) + 12*std::pow(xi_2 + xi_3 - 1, 3) - 15*(xi_2 + xi_3 - 1)*std::pow(2*xi_1 + xi_2 + xi_3 - 1, 2) - 5*std::pow(2*xi_1 + xi_2 + xi_3 - 1, 3))/(2*xi_2 + 2*xi_3 - 2) + 2*(6*xi_1*std::pow(xi_2 + xi_3 - 1, 3) + 3*std::pow(xi_2 + xi_3 - 1, 4) - 5*(xi_2 + xi_3 - 1)*std::pow(2*xi_1 + xi_2 + xi_3 - 1, 3))/std::pow(2*xi_2 + 2*xi_3 - 2, 2);
  20 => 840*std::pow(xi_3, 3) - 1008*std::pow(xi_3, 2) + 336*xi_3 - 28;
  21 => 6*xi_3 + 15*std::pow(2*xi_3 - 1, 3) + 18*std::pow(2*xi_3 - 1, 2) + (3*xi_2 + xi_3 - 1)*(144*xi_3 + 90*std::pow(2*xi_3 - 1, 2) - 66) - 4;
  22 => -(360*xi_3 - 72)*(4*xi_2*std::pow(xi_3 - 1, 2) + 3*std::pow(xi_3 - 1, 3) - 5*(xi_3 - 1)*std::pow(2*xi_2 + xi_3 - 1, 2))/(8*xi_3 - 8) - (108*xi_3 + 45*std::pow(2*xi_3 - 1, 2) - 41)*(4*xi_2*(2*xi_3 - 2) + 9*std::pow(xi_3 - 1, 2) - 5*(xi_3 - 1)*(4*xi_2 + 2*xi_3 - 2) - 5*std::pow(2*xi_2 + xi_3 - 1, 2))/(8*xi_3 - 8) + 8*(108*xi_3 + 45*std::pow(2*xi_3 - 1, 2) - 41)*(4*xi_2*std::pow(xi_3 - 1, 2) + 3*std::pow(xi_3 - 1, 3) - 5*(xi_3 - 1)*std::pow(2*xi_2 + xi_3 - 1, 2))/std::pow(8*xi_3 - 8, 2);
  23 => -(10*xi_3 - 1)*(90*xi_2*std::pow(xi_3 - 1, 2) + 48*std::pow(xi_3 - 1, 3) + 15*std::pow(xi_3 - 1, 2)*(4*xi_2 + 2*xi_3 - 2) - 105*(xi_3 - 1)*std::pow(2*xi_2 + xi_3 - 1, 2) + 15*(2*xi_3 - 2)*std::pow(2*xi_2 + xi_3 - 1, 2) - 35*std::pow(2*xi_2 + xi_3 - 1, 3))/(8*xi_3 - 8) - 10*(30*xi_2*std::pow(xi_3 - 1, 3) + 12*std::pow(xi_3 - 1, 4) + 15*std::pow(xi_3 - 1, 2)*std::pow(2*xi_2 + xi_3 - 1, 2) - 35*(xi_3 - 1)*std::pow(2*xi_2 + xi_3 - 1, 3))/(8*xi_3 - 8) + 8*(10*xi_3 - 1)*(30*xi_2*std::pow(xi_3 - 1, 3) + 12*std::pow(xi_3 - 1, 4) + 15*std::pow(xi_3 - 1, 2)*std::pow(2*xi_2 + xi_3 - 1, 2) - 35*(xi_3 - 1)*std::pow(2*xi_2 + xi_3 - 1, 3))/std::pow(8*xi_3 - 8, 2);
  24 => 9*xi_2*std::pow(xi_3 - 1, 2) + (15/2)*std::pow(xi_3 - 1, 3) - 21/4*std::pow(xi_3 - 1, 2)*(4*xi_2 + 2*xi_3 - 2) - 21/2*(xi_3 - 1)*std::pow(2*xi_2 + xi_3 - 1, 2) - 21/4*(2*xi_3 - 2)*std::pow(2*xi_2 + xi_3 - 1, 2) + 28*std::pow(2*xi_2 + xi_3 - 1, 3);
  25 => 6*xi_3 + 15*std::pow(2*xi_3 - 1, 3) + 18*std::pow(2*xi_3 - 1, 2) + (144*xi_3 + 90*std::pow(2*xi_3 - 1, 2) - 66)*(2*xi_1 + xi_2 + xi_3 - 1) - 4;
  26 => (1/4)*(360*xi_3 - 72)*(5*xi_2 + xi_3 - 1)*(2*xi_1 + xi_2 + xi_3 - 1) + (1/4)*(5*xi_2 + xi_3 - 1)*(108*xi_3 + 45*std::pow(2*xi_3 - 1, 2) - 41) + (1/4)*(108*xi_3 + 45*std::pow(2*xi_3 - 1, 2) - 41)*(2*xi_1 + xi_2 + xi_3 - 1);
  27 => -(10*xi_3 - 1)*(36*xi_2*std::pow(xi_3 - 1, 2) + 17*std::pow(xi_3 - 1, 3) - 21*(xi_3 - 1)*std::pow(2*xi_2 + xi_3 - 1, 2))/(4*xi_3 - 4) - (10*xi_3 - 1)*(2*xi_1 + xi_2 + xi_3 - 1)*(36*xi_2*(2*xi_3 - 2) + 51*std::pow(xi_3 - 1, 2) - 21*(xi_3 - 1)*(4*xi_2 + 2*xi_3 - 2) - 21*std::pow(2*xi_2 + xi_3 - 1, 2))/(4*xi_3 - 4) - 10*(36*xi_2*std::pow(xi_3 - 1, 2) + 17*std::pow(xi_3 - 1, 3) - 21*(xi_3 - 1)*std::pow(2*xi_2 + xi_3 - 1, 2))*(2*xi_1 + xi_2 + xi_3 - 1)/(4*xi_3 - 4) + 4*(10*xi_3 - 1)*(36*xi_2*std::pow(xi_3 - 1, 2) + 17*std::pow(xi_3 - 1, 3) - 21*(xi_3 - 1)*std::pow(2*xi_2 + xi_3 - 1, 2))*(2*xi_1 + xi_2 + xi_3 - 1)/std::pow(4*xi_3 - 4, 2);
  28 => std::pow(xi_3 - 1, 3) - 21/2*(xi_3 - 1)*std::pow(2*xi_2 + xi_3 - 1, 2) + (21/2)*std::pow(2*xi_2 + xi_3 - 1, 3) + (1/2)*(6*std::pow(xi_3 - 1, 2) - 21*(xi_3 - 1)*(4*xi_2 + 2*xi_3 - 2) + 42*std::pow(2*xi_2 + xi_3 - 1, 2))*(2*xi_1 + xi_2 + xi_3 - 1);
  29 => (1/8)*(360*xi_3 - 72)*(-std::pow(xi_2 + xi_3 - 1, 2) + 3*std::pow(2*xi_1 + xi_2 + xi_3 - 1, 2)) + (1/8)*(108*xi_3 + 45*std::pow(2*xi_3 - 1, 2) - 41)*(12*xi_1 + 4*xi_2 + 4*xi_3 - 4);
  30 => (1/2)*(10*xi_3 - 1)*(-std::pow(xi_2 + xi_3 - 1, 2) + 3*std::pow(2*xi_1 + xi_2 + xi_3 - 1, 2)) + (1/2)*(10*xi_3 - 1)*(7*xi_2 + xi_3 - 1)*(12*xi_1 + 4*xi_2 + 4*xi_3 - 4) + 5*(-std::pow(xi_2 + xi_3 - 1, 2) + 3*std::pow(2*xi_1 + xi_2 + xi_3 - 1, 2))*(7*xi_2 + xi_3 - 1);
  31 => (std::pow(xi_2 + xi_3 - 1, 2) - 3*std::pow(2*xi_1 + xi_2 + xi_3 - 1, 2))*(20*xi_2*(2*xi_3 - 2) + 24*std::pow(xi_3 - 1, 2) - 9*(xi_3 - 1)*(4*xi_2 + 2*xi_3 - 2) - 9*std::pow(2*xi_2 + xi_3 - 1, 2))/(2*xi_3 - 2) + (20*xi_2*std::pow(xi_3 - 1, 2) + 8*std::pow(xi_3 - 1, 3) - 9*(xi_3 - 1)*std::pow(2*xi_2 + xi_3 - 1, 2))*(-12*xi_1 - 4*xi_2 - 4*xi_3 + 4)/(2*xi_3 - 2) - 2*(std::pow(xi_2 + xi_3 - 1, 2) - 3*std::pow(2*xi_1 + xi_2 + xi_3 - 1, 2))*(20*xi_2*std::pow(xi_3 - 1, 2) + 8*std::pow(xi_3 - 1, 3) - 9*(xi_3 - 1)*std::pow(2*xi_2 + xi_3 - 1, 2))/std::pow(2*xi_3 - 2, 2);
  32 => -(10*xi_3 - 1)*(18*xi_1*std::pow(xi_2 + xi_3 - 1, 2) + 12*std::pow(xi_2 + xi_3 - 1, 3) - 15*(xi_2 + xi_3 - 1)*std::pow(2*xi_1 + xi_2 + xi_3 - 1, 2) - 5*std::pow(2*xi_1 + xi_2 + xi_3 - 1, 3))/(2*xi_2 + 2*xi_3 - 2) + 2*(10*xi_3 - 1)*(6*xi_1*std::pow(xi_2 + xi_3 - 1, 3) + 3*std::pow(xi_2 + xi_3 - 1, 4) - 5*(xi_2 + xi_3 - 1)*std::pow(2*xi_1 + xi_2 + xi_3 - 1, 3))/std::pow(2*xi_2 + 2*xi_3 - 2, 2) - 10*(6*xi_1*std::pow(xi_2 + xi_3 - 1, 3) + 3*std::pow(xi_2 + xi_3 - 1, 4) - 5*(xi_2 + xi_3 - 1)*std::pow(2*xi_1 + xi_2 + xi_3 - 1, 3))/(2*xi_2 + 2*xi_3 - 2);
  33 => (1/2)*(9*xi_2 + xi_3 - 1)*(18*xi_1*std::pow(xi_2 + xi_3 - 1, 2) + 15*(-xi_2 - xi_3 + 1)*std::pow(2*xi_1 + xi_2 + xi_3 - 1, 2) + 12*std::pow(xi_2 + xi_3 - 1, 3) - 5*std::pow(2*xi_1 + xi_2 + xi_3 - 1, 3))/(-xi_2 - xi_3 + 1) + (1/2)*(6*xi_1*std::pow(xi_2 + xi_3 - 1, 3) + 5*(-xi_2 - xi_3 + 1)*std::pow(2*xi_1 + xi_2 + xi_3 - 1, 3) + 3*std::pow(xi_2 + xi_3 - 1, 4))/(-xi_2 - xi_3 + 1) + (1/2)*(9*xi_2 + xi_3 - 1)*(6*xi_1*std::pow(xi_2 + xi_3 - 1, 3) + 5*(-xi_2 - xi_3 + 1)*std::pow(2*xi_1 + xi_2 + xi_3 - 1, 3) + 3*std::pow(xi_2 + xi_3 - 1, 4))/std::pow(-xi_2 - xi_3 + 1, 2);
  34 => (3/2)*std::pow(xi_2 + xi_3 - 1, 3) - 15/4*std::pow(xi_2 + xi_3 - 1, 2)*(4*xi_1 + 2*xi_2 + 2*xi_3 - 2) - 15/4*(2*xi_2 + 2*xi_3 - 2)*std::pow(2*xi_1 + xi_2 + xi_3 - 1, 2) + (35/2)*std::pow(2*xi_1 + xi_2 + xi_3 - 1, 3);
  35 => 3960*std::pow(xi_3, 4) - 6600*std::pow(xi_3, 3) + 3600*std::pow(xi_3, 2) - 720*xi_3 + 40;
  36 => -27/2*xi_3 + (495/16)*std::pow(2*xi_3 - 1, 4) + (165/4)*std::pow(2*xi_3 - 1, 3) + (45/8)*std::pow(2*xi_3 - 1, 2) + (1/16)*(3*xi_2 + xi_3 - 1)*(720*xi_3 + 3960*std::pow(2*xi_3 - 1, 3) + 3960*std::pow(2*xi_3 - 1, 2) - 576) + 91/16;
  37 => -(1320*xi_3 + 660*std::pow(2*xi_3 - 1, 2) - 540)*(4*xi_2*std::pow(xi_3 - 1, 2) + 3*std::pow(xi_3 - 1, 3) - 5*(xi_3 - 1)*std::pow(2*xi_2 + xi_3 - 1, 2))/(8*xi_3 - 8) - (120*xi_3 + 110*std::pow(2*xi_3 - 1, 3) + 165*std::pow(2*xi_3 - 1, 2) - 59)*(4*xi_2*(2*xi_3 - 2) + 9*std::pow(xi_3 - 1, 2) - 5*(xi_3 - 1)*(4*xi_2 + 2*xi_3 - 2) - 5*std::pow(2*xi_2 + xi_3 - 1, 2))/(8*xi_3 - 8) + 8*(4*xi_2*std::pow(xi_3 - 1, 2) + 3*std::pow(xi_3 - 1, 3) - 5*(xi_3 - 1)*std::pow(2*xi_2 + xi_3 - 1, 2))*(120*xi_3 + 110*std::pow(2*xi_3 - 1, 3) + 165*std::pow(2*xi_3 - 1, 2) - 59)/std::pow(8*xi_3 - 8, 2);
  38 => -(264*xi_3 - 44)*(30*xi_2*std::pow(xi_3 - 1, 3) + 12*std::pow(xi_3 - 1, 4) + 15*std::pow(xi_3 - 1, 2)*std::pow(2*xi_2 + xi_3 - 1, 2) - 35*(xi_3 - 1)*std::pow(2*xi_2 + xi_3 - 1, 3))/(16*xi_3 - 16) - (88*xi_3 + 33*std::pow(2*xi_3 - 1, 2) - 31)*(90*xi_2*std::pow(xi_3 - 1, 2) + 48*std::pow(xi_3 - 1, 3) + 15*std::pow(xi_3 - 1, 2)*(4*xi_2 + 2*xi_3 - 2) - 105*(xi_3 - 1)*std::pow(2*xi_2 + xi_3 - 1, 2) + 15*(2*xi_3 - 2)*std::pow(2*xi_2 + xi_3 - 1, 2) - 35*std::pow(2*xi_2 + xi_3 - 1, 3))/(16*xi_3 - 16) + 16*(88*xi_3 + 33*std::pow(2*xi_3 - 1, 2) - 31)*(30*xi_2*std::pow(xi_3 - 1, 3) + 12*std::pow(xi_3 - 1, 4) + 15*std::pow(xi_3 - 1, 2)*std::pow(2*xi_2 + xi_3 - 1, 2) - 35*(xi_3 - 1)*std::pow(2*xi_2 + xi_3 - 1, 3))/std::pow(16*xi_3 - 16, 2);
  39 => 36*xi_2*std::pow(xi_3 - 1, 3) + (45/2)*std::pow(xi_3 - 1, 4) - 63*std::pow(xi_3 - 1, 2)*std::pow(2*xi_2 + xi_3 - 1, 2) - 42*(xi_3 - 1)*std::pow(2*xi_2 + xi_3 - 1, 3) + (1/8)*(12*xi_3 - 1)*(72*xi_2*std::pow(xi_3 - 1, 2) + 60*std::pow(xi_3 - 1, 3) - 42*std::pow(xi_3 - 1, 2)*(4*xi_2 + 2*xi_3 - 2) - 84*(xi_3 - 1)*std::pow(2*xi_2 + xi_3 - 1, 2) - 42*(2*xi_3 - 2)*std::pow(2*xi_2 + xi_3 - 1, 2) + 224*std::pow(2*xi_2 + xi_3 - 1, 3)) + (189/2)*std::pow(2*xi_2 + xi_3 - 1, 4);
  40 => (1/16)*(350*xi_2*std::pow(xi_3 - 1, 4) + 420*std::pow(-xi_3 + 1, 2)*std::pow(-2*xi_2 - xi_3 + 1, 3) - 1155*(-xi_3 + 1)*std::pow(-2*xi_2 - xi_3 + 1, 4) + 180*std::pow(xi_3 - 1, 5) + 70*std::pow(xi_3 - 1, 4)*(4*xi_2 + 2*xi_3 - 2) - 350*std::pow(xi_3 - 1, 3)*std::pow(-2*xi_2 - xi_3 + 1, 2) + 630*std::pow(xi_3 - 1, 2)*std::pow(-2*xi_2 - xi_3 + 1, 3) - 105*(2*xi_3 - 2)*std::pow(-2*xi_2 - xi_3 + 1, 4) - 231*std::pow(-2*xi_2 - xi_3 + 1, 5))/(xi_3 - 1) - 1/16*(70*xi_2*std::pow(xi_3 - 1, 5) - 105*std::pow(-xi_3 + 1, 2)*std::pow(-2*xi_2 - xi_3 + 1, 4) + 231*(-xi_3 + 1)*std::pow(-2*xi_2 - xi_3 + 1, 5) + 30*std::pow(xi_3 - 1, 6) + 70*std::pow(xi_3 - 1, 4)*std::pow(-2*xi_2 - xi_3 + 1, 2) + 210*std::pow(xi_3 - 1, 3)*std::pow(-2*xi_2 - xi_3 + 1, 3))/std::pow(xi_3 - 1, 2);
  41 => -27/2*xi_3 + (495/16)*std::pow(2*xi_3 - 1, 4) + (165/4)*std::pow(2*xi_3 - 1, 3) + (45/8)*std::pow(2*xi_3 - 1, 2) + (1/16)*(2*xi_1 + xi_2 + xi_3 - 1)*(720*xi_3 + 3960*std::pow(2*xi_3 - 1, 3) + 3960*std::pow(2*xi_3 - 1, 2) - 576) + 91/16;
  42 => (1/4)*(5*xi_2 + xi_3 - 1)*(1320*xi_3 + 660*std::pow(2*xi_3 - 1, 2) - 540)*(2*xi_1 + xi_2 + xi_3 - 1) + (1/4)*(5*xi_2 + xi_3 - 1)*(120*xi_3 + 110*std::pow(2*xi_3 - 1, 3) + 165*std::pow(2*xi_3 - 1, 2) - 59) + (1/4)*(2*xi_1 + xi_2 + xi_3 - 1)*(120*xi_3 + 110*std::pow(2*xi_3 - 1, 3) + 165*std::pow(2*xi_3 - 1, 2) - 59);
  43 => -(264*xi_3 - 44)*(36*xi_2*std::pow(xi_3 - 1, 2) + 17*std::pow(xi_3 - 1, 3) - 21*(xi_3 - 1)*std::pow(2*xi_2 + xi_3 - 1, 2))*(2*xi_1 + xi_2 + xi_3 - 1)/(8*xi_3 - 8) - (88*xi_3 + 33*std::pow(2*xi_3 - 1, 2) - 31)*(36*xi_2*std::pow(xi_3 - 1, 2) + 17*std::pow(xi_3 - 1, 3) - 21*(xi_3 - 1)*std::pow(2*xi_2 + xi_3 - 1, 2))/(8*xi_3 - 8) - (88*xi_3 + 33*std::pow(2*xi_3 - 1, 2) - 31)*(2*xi_1 + xi_2 + xi_3 - 1)*(36*xi_2*(2*xi_3 - 2) + 51*std::pow(xi_3 - 1, 2) - 21*(xi_3 - 1)*(4*xi_2 + 2*xi_3 - 2) - 21*std::pow(2*xi_2 + xi_3 - 1, 2))/(8*xi_3 - 8) + 8*(88*xi_3 + 33*std::pow(2*xi_3 - 1, 2) - 31)*(36*xi_2*std::pow(xi_3 - 1, 2) + 17*std::pow(xi_3 - 1, 3) - 21*(xi_3 - 1)*std::pow(2*xi_2 + xi_3 - 1, 2))*(2*xi_1 + xi_2 + xi_3 - 1)/std::pow(8*xi_3 - 8, 2);
  44 => (1/2)*(12*xi_3 - 1)*(6*std::pow(xi_3 - 1, 2) - 21*(xi_3 - 1)*(4*xi_2 + 2*xi_3 - 2) + 42*std::pow(2*xi_2 + xi_3 - 1, 2))*(2*xi_1 + xi_2 + xi_3 - 1) + (1/2)*(12*xi_3 - 1)*(2*std::pow(xi_3 - 1, 3) - 21*(xi_3 - 1)*std::pow(2*xi_2 + xi_3 - 1, 2) + 21*std::pow(2*xi_2 + xi_3 - 1, 3)) + 6*(2*std::pow(xi_3 - 1, 3) - 21*(xi_3 - 1)*std::pow(2*xi_2 + xi_3 - 1, 2) + 21*std::pow(2*xi_2 + xi_3 - 1, 3))*(2*xi_1 + xi_2 + xi_3 - 1);
  45 => 11*xi_2*std::pow(xi_3 - 1, 3) + (41/8)*std::pow(xi_3 - 1, 4) - 9/4*std::pow(xi_3 - 1, 2)*std::pow(2*xi_2 + xi_3 - 1, 2) - 45/2*(xi_3 - 1)*std::pow(2*xi_2 + xi_3 - 1, 3) + (165/8)*std::pow(2*xi_2 + xi_3 - 1, 4) + (1/8)*(2*xi_1 + xi_2 + xi_3 - 1)*(264*xi_2*std::pow(xi_3 - 1, 2) + 164*std::pow(xi_3 - 1, 3) - 18*std::pow(xi_3 - 1, 2)*(4*xi_2 + 2*xi_3 - 2) - 540*(xi_3 - 1)*std::pow(2*xi_2 + xi_3 - 1, 2) - 18*(2*xi_3 - 2)*std::pow(2*xi_2 + xi_3 - 1, 2) + 480*std::pow(2*xi_2 + xi_3 - 1, 3));
  46 => (1/8)*(-std::pow(xi_2 + xi_3 - 1, 2) + 3*std::pow(2*xi_1 + xi_2 + xi_3 - 1, 2))*(1320*xi_3 + 660*std::pow(2*xi_3 - 1, 2) - 540) + (1/8)*(12*xi_1 + 4*xi_2 + 4*xi_3 - 4)*(120*xi_3 + 110*std::pow(2*xi_3 - 1, 3) + 165*std::pow(2*xi_3 - 1, 2) - 59);
  47 => (1/4)*(264*xi_3 - 44)*(-std::pow(xi_2 + xi_3 - 1, 2) + 3*std::pow(2*xi_1 + xi_2 + xi_3 - 1, 2))*(7*xi_2 + xi_3 - 1) + (1/4)*(-std::pow(xi_2 + xi_3 - 1, 2) + 3*std::pow(2*xi_1 + xi_2 + xi_3 - 1, 2))*(88*xi_3 + 33*std::pow(2*xi_3 - 1, 2) - 31) + (1/4)*(7*xi_2 + xi_3 - 1)*(88*xi_3 + 33*std::pow(2*xi_3 - 1, 2) - 31)*(12*xi_1 + 4*xi_2 + 4*xi_3 - 4);
  48 => (12*xi_3 - 1)*(std::pow(xi_2 + xi_3 - 1, 2) - 3*std::pow(2*xi_1 + xi_2 + xi_3 - 1, 2))*(20*xi_2*(2*xi_3 - 2) + 24*std::pow(xi_3 - 1, 2) - 9*(xi_3 - 1)*(4*xi_2 + 2*xi_3 - 2) - 9*std::pow(2*xi_2 + xi_3 - 1, 2))/(2*xi_3 - 2) + (12*xi_3 - 1)*(20*xi_2*std::pow(xi_3 - 1, 2) + 8*std::pow(xi_3 - 1, 3) - 9*(xi_3 - 1)*std::pow(2*xi_2 + xi_3 - 1, 2))*(-12*xi_1 - 4*xi_2 - 4*xi_3 + 4)/(2*xi_3 - 2) + 12*(std::pow(xi_2 + xi_3 - 1, 2) - 3*std::pow(2*xi_1 + xi_2 + xi_3 - 1, 2))*(20*xi_2*std::pow(xi_3 - 1, 2) + 8*std::pow(xi_3 - 1, 3) - 9*(xi_3 - 1)*std::pow(2*xi_2 + xi_3 - 1, 2))/(2*xi_3 - 2) - 2*(12*xi_3 - 1)*(std::pow(xi_2 + xi_3 - 1, 2) - 3*std::pow(2*xi_1 + xi_2 + xi_3 - 1, 2))*(20*xi_2*std::pow(xi_3 - 1, 2) + 8*std::pow(xi_3 - 1, 3) - 9*(xi_3 - 1)*std::pow(2*xi_2 + xi_3 - 1, 2))/std::pow(2*xi_3 - 2, 2);
  49 => (1/16)*(-std::pow(xi_2 + xi_3 - 1, 2) + 3*std::pow(2*xi_1 + xi_2 + xi_3 - 1, 2))*(378*xi_2*std::pow(xi_3 - 1, 2) - 225*std::pow(-xi_3 + 1, 2)*(4*xi_2 + 2*xi_3 - 2) - 495*(-xi_3 + 1)*std::pow(-2*xi_2 - xi_3 + 1, 2) + 272*std::pow(xi_3 - 1, 3) - 225*(2*xi_3 - 2)*std::pow(-2*xi_2 - xi_3 + 1, 2) - 165*std::pow(-2*xi_2 - xi_3 + 1, 3))/(xi_3 - 1) + (1/16)*(12*xi_1 + 4*xi_2 + 4*xi_3 - 4)*(126*xi_2*std::pow(xi_3 - 1, 3) - 225*std::pow(-xi_3 + 1, 2)*std::pow(-2*xi_2 - xi_3 + 1, 2) + 165*(-xi_3 + 1)*std::pow(-2*xi_2 - xi_3 + 1, 3) + 68*std::pow(xi_3 - 1, 4))/(xi_3 - 1) - 1/16*(-std::pow(xi_2 + xi_3 - 1, 2) + 3*std::pow(2*xi_1 + xi_2 + xi_3 - 1, 2))*(126*xi_2*std::pow(xi_3 - 1, 3) - 225*std::pow(-xi_3 + 1, 2)*std::pow(-2*xi_2 - xi_3 + 1, 2) + 165*(-xi_3 + 1)*std::pow(-2*xi_2 - xi_3 + 1, 3) + 68*std::pow(xi_3 - 1, 4))/std::pow(xi_3 - 1, 2);
  50 => -(264*xi_3 - 44)*(6*xi_1*std::pow(xi_2 + xi_3 - 1, 3) + 3*std::pow(xi_2 + xi_3 - 1, 4) - 5*(xi_2 + xi_3 - 1)*std::pow(2*xi_1 + xi_2 + xi_3 - 1, 3))/(4*xi_2 + 4*xi_3 - 4) - (88*xi_3 + 33*std::pow(2*xi_3 - 1, 2) - 31)*(18*xi_1*std::pow(xi_2 + xi_3 - 1, 2) + 12*std::pow(xi_2 + xi_3 - 1, 3) - 15*(xi_2 + xi_3 - 1)*std::pow(2*xi_1 + xi_2 + xi_3 - 1, 2) - 5*std::pow(2*xi_1 + xi_2 + xi_3 - 1, 3))/(4*xi_2 + 4*xi_3 - 4) + 4*(88*xi_3 + 33*std::pow(2*xi_3 - 1, 2) - 31)*(6*xi_1*std::pow(xi_2 + xi_3 - 1, 3) + 3*std::pow(xi_2 + xi_3 - 1, 4) - 5*(xi_2 + xi_3 - 1)*std::pow(2*xi_1 + xi_2 + xi_3 - 1, 3))/std::pow(4*xi_2 + 4*xi_3 - 4, 2);
  51 => (1/2)*(12*xi_3 - 1)*(9*xi_2 + xi_3 - 1)*(18*xi_1*std::pow(xi_2 + xi_3 - 1, 2) + 15*(-xi_2 - xi_3 + 1)*std::pow(2*xi_1 + xi_2 + xi_3 - 1, 2) + 12*std::pow(xi_2 + xi_3 - 1, 3) - 5*std::pow(2*xi_1 + xi_2 + xi_3 - 1, 3))/(-xi_2 - xi_3 + 1) + (1/2)*(12*xi_3 - 1)*(6*xi_1*std::pow(xi_2 + xi_3 - 1, 3) + 5*(-xi_2 - xi_3 + 1)*std::pow(2*xi_1 + xi_2 + xi_3 - 1, 3) + 3*std::pow(xi_2 + xi_3 - 1, 4))/(-xi_2 - xi_3 + 1) + (1/2)*(12*xi_3 - 1)*(9*xi_2 + xi_3 - 1)*(6*xi_1*std::pow(xi_2 + xi_3 - 1, 3) + 5*(-xi_2 - xi_3 + 1)*std::pow(2*xi_1 + xi_2 + xi_3 - 1, 3) + 3*std::pow(xi_2 + xi_3 - 1, 4))/std::pow(-xi_2 - xi_3 + 1, 2) + 6*(9*xi_2 + xi_3 - 1)*(6*xi_1*std::pow(xi_2 + xi_3 - 1, 3) + 5*(-xi_2 - xi_3 + 1)*std::pow(2*xi_1 + xi_2 + xi_3 - 1, 3) + 3*std::pow(xi_2 + xi_3 - 1, 4))/(-xi_2 - xi_3 + 1);
  52 => (1/8)*(6*xi_1*std::pow(xi_2 + xi_3 - 1, 3) + 5*(-xi_2 - xi_3 + 1)*std::pow(2*xi_1 + xi_2 + xi_3 - 1, 3) + 3*std::pow(xi_2 + xi_3 - 1, 4))*(140*xi_2*(2*xi_3 - 2) + 55*(-xi_3 + 1)*(4*xi_2 + 2*xi_3 - 2) + 153*std::pow(xi_3 - 1, 2) - 55*std::pow(-2*xi_2 - xi_3 + 1, 2))/((xi_3 - 1)*(xi_2 + xi_3 - 1)) + (1/8)*(140*xi_2*std::pow(xi_3 - 1, 2) + 55*(-xi_3 + 1)*std::pow(-2*xi_2 - xi_3 + 1, 2) + 51*std::pow(xi_3 - 1, 3))*(18*xi_1*std::pow(xi_2 + xi_3 - 1, 2) + 15*(-xi_2 - xi_3 + 1)*std::pow(2*xi_1 + xi_2 + xi_3 - 1, 2) + 12*std::pow(xi_2 + xi_3 - 1, 3) - 5*std::pow(2*xi_1 + xi_2 + xi_3 - 1, 3))/((xi_3 - 1)*(xi_2 + xi_3 - 1)) - 1/8*(6*xi_1*std::pow(xi_2 + xi_3 - 1, 3) + 5*(-xi_2 - xi_3 + 1)*std::pow(2*xi_1 + xi_2 + xi_3 - 1, 3) + 3*std::pow(xi_2 + xi_3 - 1, 4))*(140*xi_2*std::pow(xi_3 - 1, 2) + 55*(-xi_3 + 1)*std::pow(-2*xi_2 - xi_3 + 1, 2) + 51*std::pow(xi_3 - 1, 3))/((xi_3 - 1)*std::pow(xi_2 + xi_3 - 1, 2)) - 1/8*(6*xi_1*std::pow(xi_2 + xi_3 - 1, 3) + 5*(-xi_2 - xi_3 + 1)*std::pow(2*xi_1 + xi_2 + xi_3 - 1, 3) + 3*std::pow(xi_2 + xi_3 - 1, 4))*(140*xi_2*std::pow(xi_3 - 1, 2) + 55*(-xi_3 + 1)*std::pow(-2*xi_2 - xi_3 + 1, 2) + 51*std::pow(xi_3 - 1, 3))/(std::pow(xi_3 - 1, 2)*(xi_2 + xi_3 - 1));
  53 => (1/8)*(12*xi_3 - 1)*(12*std::pow(xi_2 + xi_3 - 1, 3) - 30*std::pow(xi_2 + xi_3 - 1, 2)*(4*xi_1 + 2*xi_2 + 2*xi_3 - 2) - 30*(2*xi_2 + 2*xi_3 - 2)*std::pow(2*xi_1 + xi_2 + xi_3 - 1, 2) + 140*std::pow(2*xi_1 + xi_2 + xi_3 - 1, 3)) + (9/2)*std::pow(xi_2 + xi_3 - 1, 4) - 45*std::pow(xi_2 + xi_3 - 1, 2)*std::pow(2*xi_1 + xi_2 + xi_3 - 1, 2) + (105/2)*std::pow(2*xi_1 + xi_2 + xi_3 - 1, 4);
  54 => (3/8)*std::pow(xi_2 + xi_3 - 1, 4) - 15/4*std::pow(xi_2 + xi_3 - 1, 2)*std::pow(2*xi_1 + xi_2 + xi_3 - 1, 2) + (1/8)*(11*xi_2 + xi_3 - 1)*(12*std::pow(xi_2 + xi_3 - 1, 3) - 30*std::pow(xi_2 + xi_3 - 1, 2)*(4*xi_1 + 2*xi_2 + 2*xi_3 - 2) - 30*(2*xi_2 + 2*xi_3 - 2)*std::pow(2*xi_1 + xi_2 + xi_3 - 1, 2) + 140*std::pow(2*xi_1 + xi_2 + xi_3 - 1, 3)) + (35/8)*std::pow(2*xi_1 + xi_2 + xi_3 - 1, 4);
  55 => (1/8)*(150*xi_1*std::pow(xi_2 + xi_3 - 1, 4) - 315*(-xi_2 - xi_3 + 1)*std::pow(-2*xi_1 - xi_2 - xi_3 + 1, 4) + 90*std::pow(xi_2 + xi_3 - 1, 5) - 210*std::pow(xi_2 + xi_3 - 1, 3)*std::pow(-2*xi_1 - xi_2 - xi_3 + 1, 2) + 210*std::pow(xi_2 + xi_3 - 1, 2)*std::pow(-2*xi_1 - xi_2 - xi_3 + 1, 3) - 63*std::pow(-2*xi_1 - xi_2 - xi_3 + 1, 5))/(xi_2 + xi_3 - 1) - 1/8*(30*xi_1*std::pow(xi_2 + xi_3 - 1, 5) + 63*(-xi_2 - xi_3 + 1)*std::pow(-2*xi_1 - xi_2 - xi_3 + 1, 5) + 15*std::pow(xi_2 + xi_3 - 1, 6) + 70*std::pow(xi_2 + xi_3 - 1, 3)*std::pow(-2*xi_1 - xi_2 - xi_3 + 1, 3))/std::pow(xi_2 + xi_3 - 1, 2);
  56 => 18018*std::pow(xi_3, 5) - 38610*std::pow(xi_3, 4) + 29700*std::pow(xi_3, 3) - 9900*std::pow(xi_3, 2) + 1350*xi_3 - 54;
  57 => -95/8*xi_3 + (1001/16)*std::pow(2*xi_3 - 1, 5) + (715/8)*std::pow(2*xi_3 - 1, 4) + (55/8)*std::pow(2*xi_3 - 1, 3) - 55/2*std::pow(2*xi_3 - 1, 2) + (1/16)*(3*xi_2 + xi_3 - 1)*(-3520*xi_3 + 10010*std::pow(2*xi_3 - 1, 4) + 11440*std::pow(2*xi_3 - 1, 3) + 660*std::pow(2*xi_3 - 1, 2) + 1570) + 105/16;
  58 => -(4*xi_2*std::pow(xi_3 - 1, 2) + 3*std::pow(xi_3 - 1, 3) - 5*(xi_3 - 1)*std::pow(2*xi_2 + xi_3 - 1, 2))*(5808*xi_3 + 8008*std::pow(2*xi_3 - 1, 3) + 10296*std::pow(2*xi_3 - 1, 2) - 2992)/(32*xi_3 - 32) - (4*xi_2*(2*xi_3 - 2) + 9*std::pow(xi_3 - 1, 2) - 5*(xi_3 - 1)*(4*xi_2 + 2*xi_3 - 2) - 5*std::pow(2*xi_2 + xi_3 - 1, 2))*(-88*xi_3 + 1001*std::pow(2*xi_3 - 1, 4) + 1716*std::pow(2*xi_3 - 1, 3) + 726*std::pow(2*xi_3 - 1, 2) + 5)/(32*xi_3 - 32) + 32*(4*xi_2*std::pow(xi_3 - 1, 2) + 3*std::pow(xi_3 - 1, 3) - 5*(xi_3 - 1)*std::pow(2*xi_2 + xi_3 - 1, 2))*(-88*xi_3 + 1001*std::pow(2*xi_3 - 1, 4) + 1716*std::pow(2*xi_3 - 1, 3) + 726*std::pow(2*xi_3 - 1, 2) + 5)/std::pow(32*xi_3 - 32, 2);
  59 => -(1248*xi_3 + 546*std::pow(2*xi_3 - 1, 2) - 474)*(30*xi_2*std::pow(xi_3 - 1, 3) + 12*std::pow(xi_3 - 1, 4) + 15*std::pow(xi_3 - 1, 2)*std::pow(2*xi_2 + xi_3 - 1, 2) - 35*(xi_3 - 1)*std::pow(2*xi_2 + xi_3 - 1, 3))/(16*xi_3 - 16) - (150*xi_3 + 91*std::pow(2*xi_3 - 1, 3) + 156*std::pow(2*xi_3 - 1, 2) - 67)*(90*xi_2*std::pow(xi_3 - 1, 2) + 48*std::pow(xi_3 - 1, 3) + 15*std::pow(xi_3 - 1, 2)*(4*xi_2 + 2*xi_3 - 2) - 105*(xi_3 - 1)*std::pow(2*xi_2 + xi_3 - 1, 2) + 15*(2*xi_3 - 2)*std::pow(2*xi_2 + xi_3 - 1, 2) - 35*std::pow(2*xi_2 + xi_3 - 1, 3))/(16*xi_3 - 16) + 16*(150*xi_3 + 91*std::pow(2*xi_3 - 1, 3) + 156*std::pow(2*xi_3 - 1, 2) - 67)*(30*xi_2*std::pow(xi_3 - 1, 3) + 12*std::pow(xi_3 - 1, 4) + 15*std::pow(xi_3 - 1, 2)*std::pow(2*xi_2 + xi_3 - 1, 2) - 35*(xi_3 - 1)*std::pow(2*xi_2 + xi_3 - 1, 3))/std::pow(16*xi_3 - 16, 2);
  60 => (1/32)*(728*xi_3 - 104)*(24*xi_2*std::pow(xi_3 - 1, 3) + 15*std::pow(xi_3 - 1, 4) - 42*std::pow(xi_3 - 1, 2)*std::pow(2*xi_2 + xi_3 - 1, 2) - 28*(xi_3 - 1)*std::pow(2*xi_2 + xi_3 - 1, 3) + 63*std::pow(2*xi_2 + xi_3 - 1, 4)) + (1/32)*(260*xi_3 + 91*std::pow(2*xi_3 - 1, 2) - 87)*(72*xi_2*std::pow(xi_3 - 1, 2) + 60*std::pow(xi_3 - 1, 3) - 42*std::pow(xi_3 - 1, 2)*(4*xi_2 + 2*xi_3 - 2) - 84*(xi_3 - 1)*std::pow(2*xi_2 + xi_3 - 1, 2) - 42*(2*xi_3 - 2)*std::pow(2*xi_2 + xi_3 - 1, 2) + 224*std::pow(2*xi_2 + xi_3 - 1, 3));
  61 => (1/16)*(14*xi_3 - 1)*(350*xi_2*std::pow(xi_3 - 1, 4) + 420*std::pow(-xi_3 + 1, 2)*std::pow(-2*xi_2 - xi_3 + 1, 3) - 1155*(-xi_3 + 1)*std::pow(-2*xi_2 - xi_3 + 1, 4) + 180*std::pow(xi_3 - 1, 5) + 70*std::pow(xi_3 - 1, 4)*(4*xi_2 + 2*xi_3 - 2) - 350*std::pow(xi_3 - 1, 3)*std::pow(-2*xi_2 - xi_3 + 1, 2) + 630*std::pow(xi_3 - 1, 2)*std::pow(-2*xi_2 - xi_3 + 1, 3) - 105*(2*xi_3 - 2)*std::pow(-2*xi_2 - xi_3 + 1, 4) - 231*std::pow(-2*xi_2 - xi_3 + 1, 5))/(xi_3 - 1) + (7/8)*(70*xi_2*std::pow(xi_3 - 1, 5) - 105*std::pow(-xi_3 + 1, 2)*std::pow(-2*xi_2 - xi_3 + 1, 4) + 231*(-xi_3 + 1)*std::pow(-2*xi_2 - xi_3 + 1, 5) + 30*std::pow(xi_3 - 1, 6) + 70*std::pow(xi_3 - 1, 4)*std::pow(-2*xi_2 - xi_3 + 1, 2) + 210*std::pow(xi_3 - 1, 3)*std::pow(-2*xi_2 - xi_3 + 1, 3))/(xi_3 - 1) - 1/16*(14*xi_3 - 1)*(70*xi_2*std::pow(xi_3 - 1, 5) - 105*std::pow(-xi_3 + 1, 2)*std::pow(-2*xi_2 - xi_3 + 1, 4) + 231*(-xi_3 + 1)*std::pow(-2*xi_2 - xi_3 + 1, 5) + 30*std::pow(xi_3 - 1, 6) + 70*std::pow(xi_3 - 1, 4)*std::pow(-2*xi_2 - xi_3 + 1, 2) + 210*std::pow(xi_3 - 1, 3)*std::pow(-2*xi_2 - xi_3 + 1, 3))/std::pow(xi_3 - 1, 2);
  62 => (1/16)*(-360*xi_2*std::pow(xi_3 - 1, 5) - 135*std::pow(-xi_3 + 1, 5)*(4*xi_2 + 2*xi_3 - 2) + 675*std::pow(-xi_3 + 1, 4)*std::pow(-2*xi_2 - xi_3 + 1, 2) - 990*std::pow(-xi_3 + 1, 2)*std::pow(-2*xi_2 - xi_3 + 1, 4) + 2574*(-xi_3 + 1)*std::pow(-2*xi_2 - xi_3 + 1, 5) - 245*std::pow(xi_3 - 1, 6) + 540*std::pow(xi_3 - 1, 4)*std::pow(-2*xi_2 - xi_3 + 1, 2) + 1260*std::pow(xi_3 - 1, 3)*std::pow(-2*xi_2 - xi_3 + 1, 3) - 1485*std::pow(xi_3 - 1, 2)*std::pow(-2*xi_2 - xi_3 + 1, 4) + 198*(2*xi_3 - 2)*std::pow(-2*xi_2 - xi_3 + 1, 5) + 429*std::pow(-2*xi_2 - xi_3 + 1, 6))/(xi_3 - 1) - 1/16*(-60*xi_2*std::pow(xi_3 - 1, 6) - 135*std::pow(-xi_3 + 1, 5)*std::pow(-2*xi_2 - xi_3 + 1, 2) + 198*std::pow(-xi_3 + 1, 2)*std::pow(-2*xi_2 - xi_3 + 1, 5) - 429*(-xi_3 + 1)*std::pow(-2*xi_2 - xi_3 + 1, 6) - 35*std::pow(xi_3 - 1, 7) - 180*std::pow(xi_3 - 1, 4)*std::pow(-2*xi_2 - xi_3 + 1, 3) - 495*std::pow(xi_3 - 1, 3)*std::pow(-2*xi_2 - xi_3 + 1, 4))/std::pow(xi_3 - 1, 2);
  63 => -95/8*xi_3 + (1001/16)*std::pow(2*xi_3 - 1, 5) + (715/8)*std::pow(2*xi_3 - 1, 4) + (55/8)*std::pow(2*xi_3 - 1, 3) - 55/2*std::pow(2*xi_3 - 1, 2) + (1/16)*(2*xi_1 + xi_2 + xi_3 - 1)*(-3520*xi_3 + 10010*std::pow(2*xi_3 - 1, 4) + 11440*std::pow(2*xi_3 - 1, 3) + 660*std::pow(2*xi_3 - 1, 2) + 1570) + 105/16;
  64 => (1/16)*(5*xi_2 + xi_3 - 1)*(2*xi_1 + xi_2 + xi_3 - 1)*(5808*xi_3 + 8008*std::pow(2*xi_3 - 1, 3) + 10296*std::pow(2*xi_3 - 1, 2) - 2992) + (1/16)*(5*xi_2 + xi_3 - 1)*(-88*xi_3 + 1001*std::pow(2*xi_3 - 1, 4) + 1716*std::pow(2*xi_3 - 1, 3) + 726*std::pow(2*xi_3 - 1, 2) + 5) + (1/16)*(2*xi_1 + xi_2 + xi_3 - 1)*(-88*xi_3 + 1001*std::pow(2*xi_3 - 1, 4) + 1716*std::pow(2*xi_3 - 1, 3) + 726*std::pow(2*xi_3 - 1, 2) + 5);
  65 => -(1248*xi_3 + 546*std::pow(2*xi_3 - 1, 2) - 474)*(36*xi_2*std::pow(xi_3 - 1, 2) + 17*std::pow(xi_3 - 1, 3) - 21*(xi_3 - 1)*std::pow(2*xi_2 + xi_3 - 1, 2))*(2*xi_1 + xi_2 + xi_3 - 1)/(8*xi_3 - 8) - (36*xi_2*std::pow(xi_3 - 1, 2) + 17*std::pow(xi_3 - 1, 3) - 21*(xi_3 - 1)*std::pow(2*xi_2 + xi_3 - 1, 2))*(150*xi_3 + 91*std::pow(2*xi_3 - 1, 3) + 156*std::pow(2*xi_3 - 1, 2) - 67)/(8*xi_3 - 8) - (2*xi_1 + xi_2 + xi_3 - 1)*(150*xi_3 + 91*std::pow(2*xi_3 - 1, 3) + 156*std::pow(2*xi_3 - 1, 2) - 67)*(36*xi_2*(2*xi_3 - 2) + 51*std::pow(xi_3 - 1, 2) - 21*(xi_3 - 1)*(4*xi_2 + 2*xi_3 - 2) - 21*std::pow(2*xi_2 + xi_3 - 1, 2))/(8*xi_3 - 8) + 8*(36*xi_2*std::pow(xi_3 - 1, 2) + 17*std::pow(xi_3 - 1, 3) - 21*(xi_3 - 1)*std::pow(2*xi_2 + xi_3 - 1, 2))*(2*xi_1 + xi_2 + xi_3 - 1)*(150*xi_3 + 91*std::pow(2*xi_3 - 1, 3) + 156*std::pow(2*xi_3 - 1, 2) - 67)/std::pow(8*xi_3 - 8, 2);
  66 => (1/8)*(728*xi_3 - 104)*(2*std::pow(xi_3 - 1, 3) - 21*(xi_3 - 1)*std::pow(2*xi_2 + xi_3 - 1, 2) + 21*std::pow(2*xi_2 + xi_3 - 1, 3))*(2*xi_1 + xi_2 + xi_3 - 1) + (1/8)*(260*xi_3 + 91*std::pow(2*xi_3 - 1, 2) - 87)*(6*std::pow(xi_3 - 1, 2) - 21*(xi_3 - 1)*(4*xi_2 + 2*xi_3 - 2) + 42*std::pow(2*xi_2 + xi_3 - 1, 2))*(2*xi_1 + xi_2 + xi_3 - 1) + (1/8)*(260*xi_3 + 91*std::pow(2*xi_3 - 1, 2) - 87)*(2*std::pow(xi_3 - 1, 3) - 21*(xi_3 - 1)*std::pow(2*xi_2 + xi_3 - 1, 2) + 21*std::pow(2*xi_2 + xi_3 - 1, 3));
  67 => (1/8)*(14*xi_3 - 1)*(2*xi_1 + xi_2 + xi_3 - 1)*(264*xi_2*std::pow(xi_3 - 1, 2) + 164*std::pow(xi_3 - 1, 3) - 18*std::pow(xi_3 - 1, 2)*(4*xi_2 + 2*xi_3 - 2) - 540*(xi_3 - 1)*std::pow(2*xi_2 + xi_3 - 1, 2) - 18*(2*xi_3 - 2)*std::pow(2*xi_2 + xi_3 - 1, 2) + 480*std::pow(2*xi_2 + xi_3 - 1, 3)) + (1/8)*(14*xi_3 - 1)*(88*xi_2*std::pow(xi_3 - 1, 3) + 41*std::pow(xi_3 - 1, 4) - 18*std::pow(xi_3 - 1, 2)*std::pow(2*xi_2 + xi_3 - 1, 2) - 180*(xi_3 - 1)*std::pow(2*xi_2 + xi_3 - 1, 3) + 165*std::pow(2*xi_2 + xi_3 - 1, 4)) + (7/4)*(2*xi_1 + xi_2 + xi_3 - 1)*(88*xi_2*std::pow(xi_3 - 1, 3) + 41*std::pow(xi_3 - 1, 4) - 18*std::pow(xi_3 - 1, 2)*std::pow(2*xi_2 + xi_3 - 1, 2) - 180*(xi_3 - 1)*std::pow(2*xi_2 + xi_3 - 1, 3) + 165*std::pow(2*xi_2 + xi_3 - 1, 4));
  68 => (1/32)*(2*xi_1 + xi_2 + xi_3 - 1)*(-450*xi_2*std::pow(xi_3 - 1, 4) + 420*std::pow(-xi_3 + 1, 5) + 5940*std::pow(-xi_3 + 1, 2)*std::pow(-2*xi_2 - xi_3 + 1, 3) - 6435*(-xi_3 + 1)*std::pow(-2*xi_2 - xi_3 + 1, 4) + 630*std::pow(xi_3 - 1, 4)*(4*xi_2 + 2*xi_3 - 2) + 1530*std::pow(xi_3 - 1, 3)*std::pow(-2*xi_2 - xi_3 + 1, 2) + 990*std::pow(xi_3 - 1, 2)*std::pow(-2*xi_2 - xi_3 + 1, 3) - 1485*(2*xi_3 - 2)*std::pow(-2*xi_2 - xi_3 + 1, 4) - 1287*std::pow(-2*xi_2 - xi_3 + 1, 5))/(xi_3 - 1) + (1/32)*(-90*xi_2*std::pow(xi_3 - 1, 5) - 70*std::pow(-xi_3 + 1, 6) - 1485*std::pow(-xi_3 + 1, 2)*std::pow(-2*xi_2 - xi_3 + 1, 4) + 1287*(-xi_3 + 1)*std::pow(-2*xi_2 - xi_3 + 1, 5) + 630*std::pow(xi_3 - 1, 4)*std::pow(-2*xi_2 - xi_3 + 1, 2) + 330*std::pow(xi_3 - 1, 3)*std::pow(-2*xi_2 - xi_3 + 1, 3))/(xi_3 - 1) - 1/32*(2*xi_1 + xi_2 + xi_3 - 1)*(-90*xi_2*std::pow(xi_3 - 1, 5) - 70*std::pow(-xi_3 + 1, 6) - 1485*std::pow(-xi_3 + 1, 2)*std::pow(-2*xi_2 - xi_3 + 1, 4) + 1287*(-xi_3 + 1)*std::pow(-2*xi_2 - xi_3 + 1, 5) + 630*std::pow(xi_3 - 1, 4)*std::pow(-2*xi_2 - xi_3 + 1, 2) + 330*std::pow(xi_3 - 1, 3)*std::pow(-2*xi_2 - xi_3 + 1, 3))/std::pow(xi_3 - 1, 2);
  69 => (1/32)*(-std::pow(xi_2 + xi_3 - 1, 2) + 3*std::pow(2*xi_1 + xi_2 + xi_3 - 1, 2))*(5808*xi_3 + 8008*std::pow(2*xi_3 - 1, 3) + 10296*std::pow(2*xi_3 - 1, 2) - 2992) + (1/32)*(12*xi_1 + 4*xi_2 + 4*xi_3 - 4)*(-88*xi_3 + 1001*std::pow(2*xi_3 - 1, 4) + 1716*std::pow(2*xi_3 - 1, 3) + 726*std::pow(2*xi_3 - 1, 2) + 5);
  70 => (1/4)*(-std::pow(xi_2 + xi_3 - 1, 2) + 3*std::pow(2*xi_1 + xi_2 + xi_3 - 1, 2))*(7*xi_2 + xi_3 - 1)*(1248*xi_3 + 546*std::pow(2*xi_3 - 1, 2) - 474) + (1/4)*(-std::pow(xi_2 + xi_3 - 1, 2) + 3*std::pow(2*xi_1 + xi_2 + xi_3 - 1, 2))*(150*xi_3 + 91*std::pow(2*xi_3 - 1, 3) + 156*std::pow(2*xi_3 - 1, 2) - 67) + (1/4)*(7*xi_2 + xi_3 - 1)*(12*xi_1 + 4*xi_2 + 4*xi_3 - 4)*(150*xi_3 + 91*std::pow(2*xi_3 - 1, 3) + 156*std::pow(2*xi_3 - 1, 2) - 67);
  71 => (728*xi_3 - 104)*(std::pow(xi_2 + xi_3 - 1, 2) - 3*std::pow(2*xi_1 + xi_2 + xi_3 - 1, 2))*(20*xi_2*std::pow(xi_3 - 1, 2) + 8*std::pow(xi_3 - 1, 3) - 9*(xi_3 - 1)*std::pow(2*xi_2 + xi_3 - 1, 2))/(8*xi_3 - 8) + (std::pow(xi_2 + xi_3 - 1, 2) - 3*std::pow(2*xi_1 + xi_2 + xi_3 - 1, 2))*(260*xi_3 + 91*std::pow(2*xi_3 - 1, 2) - 87)*(20*xi_2*(2*xi_3 - 2) + 24*std::pow(xi_3 - 1, 2) - 9*(xi_3 - 1)*(4*xi_2 + 2*xi_3 - 2) - 9*std::pow(2*xi_2 + xi_3 - 1, 2))/(8*xi_3 - 8) + (260*xi_3 + 91*std::pow(2*xi_3 - 1, 2) - 87)*(20*xi_2*std::pow(xi_3 - 1, 2) + 8*std::pow(xi_3 - 1, 3) - 9*(xi_3 - 1)*std::pow(2*xi_2 + xi_3 - 1, 2))*(-12*xi_1 - 4*xi_2 - 4*xi_3 + 4)/(8*xi_3 - 8) - 8*(std::pow(xi_2 + xi_3 - 1, 2) - 3*std::pow(2*xi_1 + xi_2 + xi_3 - 1, 2))*(260*xi_3 + 91*std::pow(2*xi_3 - 1, 2) - 87)*(20*xi_2*std::pow(xi_3 - 1, 2) + 8*std::pow(xi_3 - 1, 3) - 9*(xi_3 - 1)*std::pow(2*xi_2 + xi_3 - 1, 2))/std::pow(8*xi_3 - 8, 2);
  72 => (1/16)*(14*xi_3 - 1)*(-std::pow(xi_2 + xi_3 - 1, 2) + 3*std::pow(2*xi_1 + xi_2 + xi_3 - 1, 2))*(378*xi_2*std::pow(xi_3 - 1, 2) - 225*std::pow(-xi_3 + 1, 2)*(4*xi_2 + 2*xi_3 - 2) - 495*(-xi_3 + 1)*std::pow(-2*xi_2 - xi_3 + 1, 2) + 272*std::pow(xi_3 - 1, 3) - 225*(2*xi_3 - 2)*std::pow(-2*xi_2 - xi_3 + 1, 2) - 165*std::pow(-2*xi_2 - xi_3 + 1, 3))/(xi_3 - 1) + (1/16)*(14*xi_3 - 1)*(12*xi_1 + 4*xi_2 + 4*xi_3 - 4)*(126*xi_2*std::pow(xi_3 - 1, 3) - 225*std::pow(-xi_3 + 1, 2)*std::pow(-2*xi_2 - xi_3 + 1, 2) + 165*(-xi_3 + 1)*std::pow(-2*xi_2 - xi_3 + 1, 3) + 68*std::pow(xi_3 - 1, 4))/(xi_3 - 1) + (7/8)*(-std::pow(xi_2 + xi_3 - 1, 2) + 3*std::pow(2*xi_1 + xi_2 + xi_3 - 1, 2))*(126*xi_2*std::pow(xi_3 - 1, 3) - 225*std::pow(-xi_3 + 1, 2)*std::pow(-2*xi_2 - xi_3 + 1, 2) + 165*(-xi_3 + 1)*std::pow(-2*xi_2 - xi_3 + 1, 3) + 68*std::pow(xi_3 - 1, 4))/(xi_3 - 1) - 1/16*(14*xi_3 - 1)*(-std::pow(xi_2 + xi_3 - 1, 2) + 3*std::pow(2*xi_1 + xi_2 + xi_3 - 1, 2))*(126*xi_2*std::pow(xi_3 - 1, 3) - 225*std::pow(-xi_3 + 1, 2)*std::pow(-2*xi_2 - xi_3 + 1, 2) + 165*(-xi_3 + 1)*std::pow(-2*xi_2 - xi_3 + 1, 3) + 68*std::pow(xi_3 - 1, 4))/std::pow(xi_3 - 1, 2);
  73 => (1/32)*(-std::pow(xi_2 + xi_3 - 1, 2) + 3*std::pow(2*xi_1 + xi_2 + xi_3 - 1, 2))*(600*xi_2*std::pow(xi_3 - 1, 2) + 284*std::pow(xi_3 - 1, 3) + 330*std::pow(xi_3 - 1, 2)*(4*xi_2 + 2*xi_3 - 2) - 3300*(xi_3 - 1)*std::pow(2*xi_2 + xi_3 - 1, 2) + 330*(2*xi_3 - 2)*std::pow(2*xi_2 + xi_3 - 1, 2) + 1760*std::pow(2*xi_2 + xi_3 - 1, 3)) + (1/32)*(12*xi_1 + 4*xi_2 + 4*xi_3 - 4)*(200*xi_2*std::pow(xi_3 - 1, 3) + 71*std::pow(xi_3 - 1, 4) + 330*std::pow(xi_3 - 1, 2)*std::pow(2*xi_2 + xi_3 - 1, 2) - 1100*(xi_3 - 1)*std::pow(2*xi_2 + xi_3 - 1, 3) + 715*std::pow(2*xi_2 + xi_3 - 1, 4));
  74 => -(1248*xi_3 + 546*std::pow(2*xi_3 - 1, 2) - 474)*(6*xi_1*std::pow(xi_2 + xi_3 - 1, 3) + 3*std::pow(xi_2 + xi_3 - 1, 4) - 5*(xi_2 + xi_3 - 1)*std::pow(2*xi_1 + xi_2 + xi_3 - 1, 3))/(4*xi_2 + 4*xi_3 - 4) - (150*xi_3 + 91*std::pow(2*xi_3 - 1, 3) + 156*std::pow(2*xi_3 - 1, 2) - 67)*(18*xi_1*std::pow(xi_2 + xi_3 - 1, 2) + 12*std::pow(xi_2 + xi_3 - 1, 3) - 15*(xi_2 + xi_3 - 1)*std::pow(2*xi_1 + xi_2 + xi_3 - 1, 2) - 5*std::pow(2*xi_1 + xi_2 + xi_3 - 1, 3))/(4*xi_2 + 4*xi_3 - 4) + 4*(6*xi_1*std::pow(xi_2 + xi_3 - 1, 3) + 3*std::pow(xi_2 + xi_3 - 1, 4) - 5*(xi_2 + xi_3 - 1)*std::pow(2*xi_1 + xi_2 + xi_3 - 1, 3))*(150*xi_3 + 91*std::pow(2*xi_3 - 1, 3) + 156*std::pow(2*xi_3 - 1, 2) - 67)/std::pow(4*xi_2 + 4*xi_3 - 4, 2);
  75 => (1/8)*(728*xi_3 - 104)*(9*xi_2 + xi_3 - 1)*(6*xi_1*std::pow(xi_2 + xi_3 - 1, 3) + 5*(-xi_2 - xi_3 + 1)*std::pow(2*xi_1 + xi_2 + xi_3 - 1, 3) + 3*std::pow(xi_2 + xi_3 - 1, 4))/(-xi_2 - xi_3 + 1) + (1/8)*(9*xi_2 + xi_3 - 1)*(260*xi_3 + 91*std::pow(2*xi_3 - 1, 2) - 87)*(18*xi_1*std::pow(xi_2 + xi_3 - 1, 2) + 15*(-xi_2 - xi_3 + 1)*std::pow(2*xi_1 + xi_2 + xi_3 - 1, 2) + 12*std::pow(xi_2 + xi_3 - 1, 3) - 5*std::pow(2*xi_1 + xi_2 + xi_3 - 1, 3))/(-xi_2 - xi_3 + 1) + (1/8)*(260*xi_3 + 91*std::pow(2*xi_3 - 1, 2) - 87)*(6*xi_1*std::pow(xi_2 + xi_3 - 1, 3) + 5*(-xi_2 - xi_3 + 1)*std::pow(2*xi_1 + xi_2 + xi_3 - 1, 3) + 3*std::pow(xi_2 + xi_3 - 1, 4))/(-xi_2 - xi_3 + 1) + (1/8)*(9*xi_2 + xi_3 - 1)*(260*xi_3 + 91*std::pow(2*xi_3 - 1, 2) - 87)*(6*xi_1*std::pow(xi_2 + xi_3 - 1, 3) + 5*(-xi_2 - xi_3 + 1)*std::pow(2*xi_1 + xi_2 + xi_3 - 1, 3) + 3*std::pow(xi_2 + xi_3 - 1, 4))/std::pow(-xi_2 - xi_3 + 1, 2);
  76 => (1/8)*(14*xi_3 - 1)*(6*xi_1*std::pow(xi_2 + xi_3 - 1, 3) + 5*(-xi_2 - xi_3 + 1)*std::pow(2*xi_1 + xi_2 + xi_3 - 1, 3) + 3*std::pow(xi_2 + xi_3 - 1, 4))*(140*xi_2*(2*xi_3 - 2) + 55*(-xi_3 + 1)*(4*xi_2 + 2*xi_3 - 2) + 153*std::pow(xi_3 - 1, 2) - 55*std::pow(-2*xi_2 - xi_3 + 1, 2))/((xi_3 - 1)*(xi_2 + xi_3 - 1)) + (1/8)*(14*xi_3 - 1)*(140*xi_2*std::pow(xi_3 - 1, 2) + 55*(-xi_3 + 1)*std::pow(-2*xi_2 - xi_3 + 1, 2) + 51*std::pow(xi_3 - 1, 3))*(18*xi_1*std::pow(xi_2 + xi_3 - 1, 2) + 15*(-xi_2 - xi_3 + 1)*std::pow(2*xi_1 + xi_2 + xi_3 - 1, 2) + 12*std::pow(xi_2 + xi_3 - 1, 3) - 5*std::pow(2*xi_1 + xi_2 + xi_3 - 1, 3))/((xi_3 - 1)*(xi_2 + xi_3 - 1)) - 1/8*(14*xi_3 - 1)*(6*xi_1*std::pow(xi_2 + xi_3 - 1, 3) + 5*(-xi_2 - xi_3 + 1)*std::pow(2*xi_1 + xi_2 + xi_3 - 1, 3) + 3*std::pow(xi_2 + xi_3 - 1, 4))*(140*xi_2*std::pow(xi_3 - 1, 2) + 55*(-xi_3 + 1)*std::pow(-2*xi_2 - xi_3 + 1, 2) + 51*std::pow(xi_3 - 1, 3))/((xi_3 - 1)*std::pow(xi_2 + xi_3 - 1, 2)) + (7/4)*(6*xi_1*std::pow(xi_2 + xi_3 - 1, 3) + 5*(-xi_2 - xi_3 + 1)*std::pow(2*xi_1 + xi_2 + xi_3 - 1, 3) + 3*std::pow(xi_2 + xi_3 - 1, 4))*(140*xi_2*std::pow(xi_3 - 1, 2) + 55*(-xi_3 + 1)*std::pow(-2*xi_2 - xi_3 + 1, 2) + 51*std::pow(xi_3 - 1, 3))/((xi_3 - 1)*(xi_2 + xi_3 - 1)) - 1/8*(14*xi_3 - 1)*(6*xi_1*std::pow(xi_2 + xi_3 - 1, 3) + 5*(-xi_2 - xi_3 + 1)*std::pow(2*xi_1 + xi_2 + xi_3 - 1, 3) + 3*std::pow(xi_2 + xi_3 - 1, 4))*(140*xi_2*std::pow(xi_3 - 1, 2) + 55*(-xi_3 + 1)*std::pow(-2*xi_2 - xi_3 + 1, 2) + 51*std::pow(xi_3 - 1, 3))/(std::pow(xi_3 - 1, 2)*(xi_2 + xi_3 - 1));
  77 => -(6*xi_1*std::pow(xi_2 + xi_3 - 1, 3) + 3*std::pow(xi_2 + xi_3 - 1, 4) - 5*(xi_2 + xi_3 - 1)*std::pow(2*xi_1 + xi_2 + xi_3 - 1, 3))*(198*xi_2*(2*xi_3 - 2) + 276*std::pow(xi_3 - 1, 2) - 231*(xi_3 - 1)*(4*xi_2 + 2*xi_3 - 2) + 198*std::pow(2*xi_2 + xi_3 - 1, 2))/(8*xi_2 + 8*xi_3 - 8) - (18*xi_1*std::pow(xi_2 + xi_3 - 1, 2) + 12*std::pow(xi_2 + xi_3 - 1, 3) - 15*(xi_2 + xi_3 - 1)*std::pow(2*xi_1 + xi_2 + xi_3 - 1, 2) - 5*std::pow(2*xi_1 + xi_2 + xi_3 - 1, 3))*(198*xi_2*std::pow(xi_3 - 1, 2) + 92*std::pow(xi_3 - 1, 3) - 231*(xi_3 - 1)*std::pow(2*xi_2 + xi_3 - 1, 2) + 143*std::pow(2*xi_2 + xi_3 - 1, 3))/(8*xi_2 + 8*xi_3 - 8) + 8*(6*xi_1*std::pow(xi_2 + xi_3 - 1, 3) + 3*std::pow(xi_2 + xi_3 - 1, 4) - 5*(xi_2 + xi_3 - 1)*std::pow(2*xi_1 + xi_2 + xi_3 - 1, 3))*(198*xi_2*std::pow(xi_3 - 1, 2) + 92*std::pow(xi_3 - 1, 3) - 231*(xi_3 - 1)*std::pow(2*xi_2 + xi_3 - 1, 2) + 143*std::pow(2*xi_2 + xi_3 - 1, 3))/std::pow(8*xi_2 + 8*xi_3 - 8, 2);
  78 => (1/32)*(728*xi_3 - 104)*(3*std::pow(xi_2 + xi_3 - 1, 4) - 30*std::pow(xi_2 + xi_3 - 1, 2)*std::pow(2*xi_1 + xi_2 + xi_3 - 1, 2) + 35*std::pow(2*xi_1 + xi_2 + xi_3 - 1, 4)) + (1/32)*(260*xi_3 + 91*std::pow(2*xi_3 - 1, 2) - 87)*(12*std::pow(xi_2 + xi_3 - 1, 3) - 30*std::pow(xi_2 + xi_3 - 1, 2)*(4*xi_1 + 2*xi_2 + 2*xi_3 - 2) - 30*(2*xi_2 + 2*xi_3 - 2)*std::pow(2*xi_1 + xi_2 + xi_3 - 1, 2) + 140*std::pow(2*xi_1 + xi_2 + xi_3 - 1, 3));
  79 => (1/8)*(14*xi_3 - 1)*(11*xi_2 + xi_3 - 1)*(12*std::pow(xi_2 + xi_3 - 1, 3) - 30*std::pow(xi_2 + xi_3 - 1, 2)*(4*xi_1 + 2*xi_2 + 2*xi_3 - 2) - 30*(2*xi_2 + 2*xi_3 - 2)*std::pow(2*xi_1 + xi_2 + xi_3 - 1, 2) + 140*std::pow(2*xi_1 + xi_2 + xi_3 - 1, 3)) + (1/8)*(14*xi_3 - 1)*(3*std::pow(xi_2 + xi_3 - 1, 4) - 30*std::pow(xi_2 + xi_3 - 1, 2)*std::pow(2*xi_1 + xi_2 + xi_3 - 1, 2) + 35*std::pow(2*xi_1 + xi_2 + xi_3 - 1, 4)) + (7/4)*(11*xi_2 + xi_3 - 1)*(3*std::pow(xi_2 + xi_3 - 1, 4) - 30*std::pow(xi_2 + xi_3 - 1, 2)*std::pow(2*xi_1 + xi_2 + xi_3 - 1, 2) + 35*std::pow(2*xi_1 + xi_2 + xi_3 - 1, 4));
  80 => -(108*xi_2*std::pow(xi_3 - 1, 2) + 37*std::pow(xi_3 - 1, 3) - 39*(xi_3 - 1)*std::pow(2*xi_2 + xi_3 - 1, 2))*(12*std::pow(xi_2 + xi_3 - 1, 3) - 30*std::pow(xi_2 + xi_3 - 1, 2)*(4*xi_1 + 2*xi_2 + 2*xi_3 - 2) - 30*(2*xi_2 + 2*xi_3 - 2)*std::pow(2*xi_1 + xi_2 + xi_3 - 1, 2) + 140*std::pow(2*xi_1 + xi_2 + xi_3 - 1, 3))/(16*xi_3 - 16) - (3*std::pow(xi_2 + xi_3 - 1, 4) - 30*std::pow(xi_2 + xi_3 - 1, 2)*std::pow(2*xi_1 + xi_2 + xi_3 - 1, 2) + 35*std::pow(2*xi_1 + xi_2 + xi_3 - 1, 4))*(108*xi_2*(2*xi_3 - 2) + 111*std::pow(xi_3 - 1, 2) - 39*(xi_3 - 1)*(4*xi_2 + 2*xi_3 - 2) - 39*std::pow(2*xi_2 + xi_3 - 1, 2))/(16*xi_3 - 16) + 16*(108*xi_2*std::pow(xi_3 - 1, 2) + 37*std::pow(xi_3 - 1, 3) - 39*(xi_3 - 1)*std::pow(2*xi_2 + xi_3 - 1, 2))*(3*std::pow(xi_2 + xi_3 - 1, 4) - 30*std::pow(xi_2 + xi_3 - 1, 2)*std::pow(2*xi_1 + xi_2 + xi_3 - 1, 2) + 35*std::pow(2*xi_1 + xi_2 + xi_3 - 1, 4))/std::pow(16*xi_3 - 16, 2);
  81 => (1/8)*(14*xi_3 - 1)*(150*xi_1*std::pow(xi_2 + xi_3 - 1, 4) - 315*(-xi_2 - xi_3 + 1)*std::pow(-2*xi_1 - xi_2 - xi_3 + 1, 4) + 90*std::pow(xi_2 + xi_3 - 1, 5) - 210*std::pow(xi_2 + xi_3 - 1, 3)*std::pow(-2*xi_1 - xi_2 - xi_3 + 1, 2) + 210*std::pow(xi_2 + xi_3 - 1, 2)*std::pow(-2*xi_1 - xi_2 - xi_3 + 1, 3) - 63*std::pow(-2*xi_1 - xi_2 - xi_3 + 1, 5))/(xi_2 + xi_3 - 1) - 1/8*(14*xi_3 - 1)*(30*xi_1*std::pow(xi_2 + xi_3 - 1, 5) + 63*(-xi_2 - xi_3 + 1)*std::pow(-2*xi_1 - xi_2 - xi_3 + 1, 5) + 15*std::pow(xi_2 + xi_3 - 1, 6) + 70*std::pow(xi_2 + xi_3 - 1, 3)*std::pow(-2*xi_1 - xi_2 - xi_3 + 1, 3))/std::pow(xi_2 + xi_3 - 1, 2) + (7/4)*(30*xi_1*std::pow(xi_2 + xi_3 - 1, 5) + 63*(-xi_2 - xi_3 + 1)*std::pow(-2*xi_1 - xi_2 - xi_3 + 1, 5) + 15*std::pow(xi_2 + xi_3 - 1, 6) + 70*std::pow(xi_2 + xi_3 - 1, 3)*std::pow(-2*xi_1 - xi_2 - xi_3 + 1, 3))/(xi_2 + xi_3 - 1);
  82 => (1/8)*(13*xi_2 + xi_3 - 1)*(150*xi_1*std::pow(xi_2 + xi_3 - 1, 4) - 315*(-xi_2 - xi_3 + 1)*std::pow(-2*xi_1 - xi_2 - xi_3 + 1, 4) + 90*std::pow(xi_2 + xi_3 - 1, 5) - 210*std::pow(xi_2 + xi_3 - 1, 3)*std::pow(-2*xi_1 - xi_2 - xi_3 + 1, 2) + 210*std::pow(xi_2 + xi_3 - 1, 2)*std::pow(-2*xi_1 - xi_2 - xi_3 + 1, 3) - 63*std::pow(-2*xi_1 - xi_2 - xi_3 + 1, 5))/(xi_2 + xi_3 - 1) + (1/8)*(30*xi_1*std::pow(xi_2 + xi_3 - 1, 5) + 63*(-xi_2 - xi_3 + 1)*std::pow(-2*xi_1 - xi_2 - xi_3 + 1, 5) + 15*std::pow(xi_2 + xi_3 - 1, 6) + 70*std::pow(xi_2 + xi_3 - 1, 3)*std::pow(-2*xi_1 - xi_2 - xi_3 + 1, 3))/(xi_2 + xi_3 - 1) - 1/8*(13*xi_2 + xi_3 - 1)*(30*xi_1*std::pow(xi_2 + xi_3 - 1, 5) + 63*(-xi_2 - xi_3 + 1)*std::pow(-2*xi_1 - xi_2 - xi_3 + 1, 5) + 15*std::pow(xi_2 + xi_3 - 1, 6) + 70*std::pow(xi_2 + xi_3 - 1, 3)*std::pow(-2*xi_1 - xi_2 - xi_3 + 1, 3))/std::pow(xi_2 + xi_3 - 1, 2);
  83 => -15/8*std::pow(xi_2 + xi_3 - 1, 5) + (105/16)*std::pow(xi_2 + xi_3 - 1, 4)*(4*xi_1 + 2*xi_2 + 2*xi_3 - 2) + (105/4)*std::pow(xi_2 + xi_3 - 1, 3)*std::pow(2*xi_1 + xi_2 + xi_3 - 1, 2) - 315/4*std::pow(xi_2 + xi_3 - 1, 2)*std::pow(2*xi_1 + xi_2 + xi_3 - 1, 3) - 315/16*(2*xi_2 + 2*xi_3 - 2)*std::pow(2*xi_1 + xi_2 + xi_3 - 1, 4) + (693/8)*std::pow(2*xi_1 + xi_2 + xi_3 - 1, 5);
  84 => 80080*std::pow(xi_3, 6) - 210210*std::pow(xi_3, 5) + 210210*std::pow(xi_3, 4) - 100100*std::pow(xi_3, 3) + 23100*std::pow(xi_3, 2) - 2310*xi_3 + 70;
  85 => (99/8)*xi_3 + (1001/8)*std::pow(2*xi_3 - 1, 6) + (3003/16)*std::pow(2*xi_3 - 1, 5) - 715/8*std::pow(2*xi_3 - 1, 3) - 165/8*std::pow(2*xi_3 - 1, 2) + (1/16)*(3*xi_2 + xi_3 - 1)*(-2640*xi_3 + 24024*std::pow(2*xi_3 - 1, 5) + 30030*std::pow(2*xi_3 - 1, 4) - 8580*std::pow(2*xi_3 - 1, 2) + 1518) - 83/16;
  86 => -(4*xi_2*std::pow(xi_3 - 1, 2) + 3*std::pow(xi_3 - 1, 3) - 5*(xi_3 - 1)*std::pow(2*xi_2 + xi_3 - 1, 2))*(-3120*xi_3 + 21840*std::pow(2*xi_3 - 1, 4) + 32760*std::pow(2*xi_3 - 1, 3) + 10920*std::pow(2*xi_3 - 1, 2) + 960)/(32*xi_3 - 32) - (4*xi_2*(2*xi_3 - 2) + 9*std::pow(xi_3 - 1, 2) - 5*(xi_3 - 1)*(4*xi_2 + 2*xi_3 - 2) - 5*std::pow(2*xi_2 + xi_3 - 1, 2))*(-600*xi_3 + 2184*std::pow(2*xi_3 - 1, 5) + 4095*std::pow(2*xi_3 - 1, 4) + 1820*std::pow(2*xi_3 - 1, 3) - 390*std::pow(2*xi_3 - 1, 2) + 283)/(32*xi_3 - 32) + 32*(4*xi_2*std::pow(xi_3 - 1, 2) + 3*std::pow(xi_3 - 1, 3) - 5*(xi_3 - 1)*std::pow(2*xi_2 + xi_3 - 1, 2))*(-600*xi_3 + 2184*std::pow(2*xi_3 - 1, 5) + 4095*std::pow(2*xi_3 - 1, 4) + 1820*std::pow(2*xi_3 - 1, 3) - 390*std::pow(2*xi_3 - 1, 2) + 283)/std::pow(32*xi_3 - 32, 2);
  87 => -(4368*xi_3 + 3640*std::pow(2*xi_3 - 1, 3) + 5460*std::pow(2*xi_3 - 1, 2) - 2028)*(30*xi_2*std::pow(xi_3 - 1, 3) + 12*std::pow(xi_3 - 1, 4) + 15*std::pow(xi_3 - 1, 2)*std::pow(2*xi_2 + xi_3 - 1, 2) - 35*(xi_3 - 1)*std::pow(2*xi_2 + xi_3 - 1, 3))/(32*xi_3 - 32) - (156*xi_3 + 455*std::pow(2*xi_3 - 1, 4) + 910*std::pow(2*xi_3 - 1, 3) + 546*std::pow(2*xi_3 - 1, 2) - 87)*(90*xi_2*std::pow(xi_3 - 1, 2) + 48*std::pow(xi_3 - 1, 3) + 15*std::pow(xi_3 - 1, 2)*(4*xi_2 + 2*xi_3 - 2) - 105*(xi_3 - 1)*std::pow(2*xi_2 + xi_3 - 1, 2) + 15*(2*xi_3 - 2)*std::pow(2*xi_2 + xi_3 - 1, 2) - 35*std::pow(2*xi_2 + xi_3 - 1, 3))/(32*xi_3 - 32) + 32*(30*xi_2*std::pow(xi_3 - 1, 3) + 12*std::pow(xi_3 - 1, 4) + 15*std::pow(xi_3 - 1, 2)*std::pow(2*xi_2 + xi_3 - 1, 2) - 35*(xi_3 - 1)*std::pow(2*xi_2 + xi_3 - 1, 3))*(156*xi_3 + 455*std::pow(2*xi_3 - 1, 4) + 910*std::pow(2*xi_3 - 1, 3) + 546*std::pow(2*xi_3 - 1, 2) - 87)/std::pow(32*xi_3 - 32, 2);
  88 => (1/32)*(4200*xi_3 + 1680*std::pow(2*xi_3 - 1, 2) - 1512)*(24*xi_2*std::pow(xi_3 - 1, 3) + 15*std::pow(xi_3 - 1, 4) - 42*std::pow(xi_3 - 1, 2)*std::pow(2*xi_2 + xi_3 - 1, 2) - 28*(xi_3 - 1)*std::pow(2*xi_2 + xi_3 - 1, 3) + 63*std::pow(2*xi_2 + xi_3 - 1, 4)) + (1/32)*(588*xi_3 + 280*std::pow(2*xi_3 - 1, 3) + 525*std::pow(2*xi_3 - 1, 2) - 249)*(72*xi_2*std::pow(xi_3 - 1, 2) + 60*std::pow(xi_3 - 1, 3) - 42*std::pow(xi_3 - 1, 2)*(4*xi_2 + 2*xi_3 - 2) - 84*(xi_3 - 1)*std::pow(2*xi_2 + xi_3 - 1, 2) - 42*(2*xi_3 - 2)*std::pow(2*xi_2 + xi_3 - 1, 2) + 224*std::pow(2*xi_2 + xi_3 - 1, 3));
  89 => (1/16)*(240*xi_3 - 30)*(70*xi_2*std::pow(xi_3 - 1, 5) - 105*std::pow(-xi_3 + 1, 2)*std::pow(-2*xi_2 - xi_3 + 1, 4) + 231*(-xi_3 + 1)*std::pow(-2*xi_2 - xi_3 + 1, 5) + 30*std::pow(xi_3 - 1, 6) + 70*std::pow(xi_3 - 1, 4)*std::pow(-2*xi_2 - xi_3 + 1, 2) + 210*std::pow(xi_3 - 1, 3)*std::pow(-2*xi_2 - xi_3 + 1, 3))/(xi_3 - 1) + (1/16)*(90*xi_3 + 30*std::pow(2*xi_3 - 1, 2) - 29)*(350*xi_2*std::pow(xi_3 - 1, 4) + 420*std::pow(-xi_3 + 1, 2)*std::pow(-2*xi_2 - xi_3 + 1, 3) - 1155*(-xi_3 + 1)*std::pow(-2*xi_2 - xi_3 + 1, 4) + 180*std::pow(xi_3 - 1, 5) + 70*std::pow(xi_3 - 1, 4)*(4*xi_2 + 2*xi_3 - 2) - 350*std::pow(xi_3 - 1, 3)*std::pow(-2*xi_2 - xi_3 + 1, 2) + 630*std::pow(xi_3 - 1, 2)*std::pow(-2*xi_2 - xi_3 + 1, 3) - 105*(2*xi_3 - 2)*std::pow(-2*xi_2 - xi_3 + 1, 4) - 231*std::pow(-2*xi_2 - xi_3 + 1, 5))/(xi_3 - 1) - 1/16*(90*xi_3 + 30*std::pow(2*xi_3 - 1, 2) - 29)*(70*xi_2*std::pow(xi_3 - 1, 5) - 105*std::pow(-xi_3 + 1, 2)*std::pow(-2*xi_2 - xi_3 + 1, 4) + 231*(-xi_3 + 1)*std::pow(-2*xi_2 - xi_3 + 1, 5) + 30*std::pow(xi_3 - 1, 6) + 70*std::pow(xi_3 - 1, 4)*std::pow(-2*xi_2 - xi_3 + 1, 2) + 210*std::pow(xi_3 - 1, 3)*std::pow(-2*xi_2 - xi_3 + 1, 3))/std::pow(xi_3 - 1, 2);
  90 => -(16*xi_3 - 1)*(360*xi_2*std::pow(xi_3 - 1, 5) + 245*std::pow(xi_3 - 1, 6) - 135*std::pow(xi_3 - 1, 5)*(4*xi_2 + 2*xi_3 - 2) - 1215*std::pow(xi_3 - 1, 4)*std::pow(2*xi_2 + xi_3 - 1, 2) + 1260*std::pow(xi_3 - 1, 3)*std::pow(2*xi_2 + xi_3 - 1, 3) + 2475*std::pow(xi_3 - 1, 2)*std::pow(2*xi_2 + xi_3 - 1, 4) - 2574*(xi_3 - 1)*std::pow(2*xi_2 + xi_3 - 1, 5) + 198*(2*xi_3 - 2)*std::pow(2*xi_2 + xi_3 - 1, 5) - 429*std::pow(2*xi_2 + xi_3 - 1, 6))/(16*xi_3 - 16) - 16*(60*xi_2*std::pow(xi_3 - 1, 6) + 35*std::pow(xi_3 - 1, 7) - 135*std::pow(xi_3 - 1, 5)*std::pow(2*xi_2 + xi_3 - 1, 2) - 180*std::pow(xi_3 - 1, 4)*std::pow(2*xi_2 + xi_3 - 1, 3) + 495*std::pow(xi_3 - 1, 3)*std::pow(2*xi_2 + xi_3 - 1, 4) + 198*std::pow(xi_3 - 1, 2)*std::pow(2*xi_2 + xi_3 - 1, 5) - 429*(xi_3 - 1)*std::pow(2*xi_2 + xi_3 - 1, 6))/(16*xi_3 - 16) + 16*(16*xi_3 - 1)*(60*xi_2*std::pow(xi_3 - 1, 6) + 35*std::pow(xi_3 - 1, 7) - 135*std::pow(xi_3 - 1, 5)*std::pow(2*xi_2 + xi_3 - 1, 2) - 180*std::pow(xi_3 - 1, 4)*std::pow(2*xi_2 + xi_3 - 1, 3) + 495*std::pow(xi_3 - 1, 3)*std::pow(2*xi_2 + xi_3 - 1, 4) + 198*std::pow(xi_3 - 1, 2)*std::pow(2*xi_2 + xi_3 - 1, 5) - 429*(xi_3 - 1)*std::pow(2*xi_2 + xi_3 - 1, 6))/std::pow(16*xi_3 - 16, 2);
  91 => (1/128)*(-4410*xi_2*std::pow(xi_3 - 1, 6) - 10395*std::pow(-xi_3 + 1, 5)*std::pow(2*xi_2 + xi_3 - 1, 2) + 31185*std::pow(-xi_3 + 1, 4)*std::pow(2*xi_2 + xi_3 - 1, 3) - 13860*std::pow(-xi_3 + 1, 3)*std::pow(2*xi_2 + xi_3 - 1, 4) - 45045*(-xi_3 + 1)*std::pow(2*xi_2 + xi_3 - 1, 6) - 2240*std::pow(xi_3 - 1, 7) - 945*std::pow(xi_3 - 1, 6)*(4*xi_2 + 2*xi_3 - 2) - 5670*std::pow(xi_3 - 1, 5)*std::pow(2*xi_2 + xi_3 - 1, 2) - 45045*std::pow(xi_3 - 1, 3)*std::pow(2*xi_2 + xi_3 - 1, 4) - 45045*std::pow(xi_3 - 1, 2)*std::pow(2*xi_2 + xi_3 - 1, 5) - 3003*(2*xi_3 - 2)*std::pow(2*xi_2 + xi_3 - 1, 6) + 6435*std::pow(2*xi_2 + xi_3 - 1, 7))/(xi_3 - 1) - 1/128*(-630*xi_2*std::pow(xi_3 - 1, 7) - 3465*std::pow(-xi_3 + 1, 5)*std::pow(2*xi_2 + xi_3 - 1, 3) + 3465*std::pow(-xi_3 + 1, 4)*std::pow(2*xi_2 + xi_3 - 1, 4) - 6435*(-xi_3 + 1)*std::pow(2*xi_2 + xi_3 - 1, 7) - 280*std::pow(xi_3 - 1, 8) - 945*std::pow(xi_3 - 1, 6)*std::pow(2*xi_2 + xi_3 - 1, 2) - 9009*std::pow(xi_3 - 1, 3)*std::pow(2*xi_2 + xi_3 - 1, 5) - 3003*std::pow(xi_3 - 1, 2)*std::pow(2*xi_2 + xi_3 - 1, 6))/std::pow(xi_3 - 1, 2);
  92 => (99/8)*xi_3 + (1001/8)*std::pow(2*xi_3 - 1, 6) + (3003/16)*std::pow(2*xi_3 - 1, 5) - 715/8*std::pow(2*xi_3 - 1, 3) - 165/8*std::pow(2*xi_3 - 1, 2) + (1/16)*(2*xi_1 + xi_2 + xi_3 - 1)*(-2640*xi_3 + 24024*std::pow(2*xi_3 - 1, 5) + 30030*std::pow(2*xi_3 - 1, 4) - 8580*std::pow(2*xi_3 - 1, 2) + 1518) - 83/16;
  93 => (1/16)*(5*xi_2 + xi_3 - 1)*(2*xi_1 + xi_2 + xi_3 - 1)*(-3120*xi_3 + 21840*std::pow(2*xi_3 - 1, 4) + 32760*std::pow(2*xi_3 - 1, 3) + 10920*std::pow(2*xi_3 - 1, 2) + 960) + (1/16)*(5*xi_2 + xi_3 - 1)*(-600*xi_3 + 2184*std::pow(2*xi_3 - 1, 5) + 4095*std::pow(2*xi_3 - 1, 4) + 1820*std::pow(2*xi_3 - 1, 3) - 390*std::pow(2*xi_3 - 1, 2) + 283) + (1/16)*(2*xi_1 + xi_2 + xi_3 - 1)*(-600*xi_3 + 2184*std::pow(2*xi_3 - 1, 5) + 4095*std::pow(2*xi_3 - 1, 4) + 1820*std::pow(2*xi_3 - 1, 3) - 390*std::pow(2*xi_3 - 1, 2) + 283);
  94 => -(36*xi_2*std::pow(xi_3 - 1, 2) + 17*std::pow(xi_3 - 1, 3) - 21*(xi_3 - 1)*std::pow(2*xi_2 + xi_3 - 1, 2))*(2*xi_1 + xi_2 + xi_3 - 1)*(4368*xi_3 + 3640*std::pow(2*xi_3 - 1, 3) + 5460*std::pow(2*xi_3 - 1, 2) - 2028)/(16*xi_3 - 16) - (36*xi_2*std::pow(xi_3 - 1, 2) + 17*std::pow(xi_3 - 1, 3) - 21*(xi_3 - 1)*std::pow(2*xi_2 + xi_3 - 1, 2))*(156*xi_3 + 455*std::pow(2*xi_3 - 1, 4) + 910*std::pow(2*xi_3 - 1, 3) + 546*std::pow(2*xi_3 - 1, 2) - 87)/(16*xi_3 - 16) - (2*xi_1 + xi_2 + xi_3 - 1)*(36*xi_2*(2*xi_3 - 2) + 51*std::pow(xi_3 - 1, 2) - 21*(xi_3 - 1)*(4*xi_2 + 2*xi_3 - 2) - 21*std::pow(2*xi_2 + xi_3 - 1, 2))*(156*xi_3 + 455*std::pow(2*xi_3 - 1, 4) + 910*std::pow(2*xi_3 - 1, 3) + 546*std::pow(2*xi_3 - 1, 2) - 87)/(16*xi_3 - 16) + 16*(36*xi_2*std::pow(xi_3 - 1, 2) + 17*std::pow(xi_3 - 1, 3) - 21*(xi_3 - 1)*std::pow(2*xi_2 + xi_3 - 1, 2))*(2*xi_1 + xi_2 + xi_3 - 1)*(156*xi_3 + 455*std::pow(2*xi_3 - 1, 4) + 910*std::pow(2*xi_3 - 1, 3) + 546*std::pow(2*xi_3 - 1, 2) - 87)/std::pow(16*xi_3 - 16, 2);
  95 => (1/8)*(4200*xi_3 + 1680*std::pow(2*xi_3 - 1, 2) - 1512)*(2*std::pow(xi_3 - 1, 3) - 21*(xi_3 - 1)*std::pow(2*xi_2 + xi_3 - 1, 2) + 21*std::pow(2*xi_2 + xi_3 - 1, 3))*(2*xi_1 + xi_2 + xi_3 - 1) + (1/8)*(6*std::pow(xi_3 - 1, 2) - 21*(xi_3 - 1)*(4*xi_2 + 2*xi_3 - 2) + 42*std::pow(2*xi_2 + xi_3 - 1, 2))*(2*xi_1 + xi_2 + xi_3 - 1)*(588*xi_3 + 280*std::pow(2*xi_3 - 1, 3) + 525*std::pow(2*xi_3 - 1, 2) - 249) + (1/8)*(2*std::pow(xi_3 - 1, 3) - 21*(xi_3 - 1)*std::pow(2*xi_2 + xi_3 - 1, 2) + 21*std::pow(2*xi_2 + xi_3 - 1, 3))*(588*xi_3 + 280*std::pow(2*xi_3 - 1, 3) + 525*std::pow(2*xi_3 - 1, 2) - 249);
  96 => (1/8)*(240*xi_3 - 30)*(2*xi_1 + xi_2 + xi_3 - 1)*(88*xi_2*std::pow(xi_3 - 1, 3) + 41*std::pow(xi_3 - 1, 4) - 18*std::pow(xi_3 - 1, 2)*std::pow(2*xi_2 + xi_3 - 1, 2) - 180*(xi_3 - 1)*std::pow(2*xi_2 + xi_3 - 1, 3) + 165*std::pow(2*xi_2 + xi_3 - 1, 4)) + (1/8)*(90*xi_3 + 30*std::pow(2*xi_3 - 1, 2) - 29)*(2*xi_1 + xi_2 + xi_3 - 1)*(264*xi_2*std::pow(xi_3 - 1, 2) + 164*std::pow(xi_3 - 1, 3) - 18*std::pow(xi_3 - 1, 2)*(4*xi_2 + 2*xi_3 - 2) - 540*(xi_3 - 1)*std::pow(2*xi_2 + xi_3 - 1, 2) - 18*(2*xi_3 - 2)*std::pow(2*xi_2 + xi_3 - 1, 2) + 480*std::pow(2*xi_2 + xi_3 - 1, 3)) + (1/8)*(90*xi_3 + 30*std::pow(2*xi_3 - 1, 2) - 29)*(88*xi_2*std::pow(xi_3 - 1, 3) + 41*std::pow(xi_3 - 1, 4) - 18*std::pow(xi_3 - 1, 2)*std::pow(2*xi_2 + xi_3 - 1, 2) - 180*(xi_3 - 1)*std::pow(2*xi_2 + xi_3 - 1, 3) + 165*std::pow(2*xi_2 + xi_3 - 1, 4));
  97 => (1/32)*(16*xi_3 - 1)*(2*xi_1 + xi_2 + xi_3 - 1)*(-450*xi_2*std::pow(xi_3 - 1, 4) + 420*std::pow(-xi_3 + 1, 5) + 5940*std::pow(-xi_3 + 1, 2)*std::pow(-2*xi_2 - xi_3 + 1, 3) - 6435*(-xi_3 + 1)*std::pow(-2*xi_2 - xi_3 + 1, 4) + 630*std::pow(xi_3 - 1, 4)*(4*xi_2 + 2*xi_3 - 2) + 1530*std::pow(xi_3 - 1, 3)*std::pow(-2*xi_2 - xi_3 + 1, 2) + 990*std::pow(xi_3 - 1, 2)*std::pow(-2*xi_2 - xi_3 + 1, 3) - 1485*(2*xi_3 - 2)*std::pow(-2*xi_2 - xi_3 + 1, 4) - 1287*std::pow(-2*xi_2 - xi_3 + 1, 5))/(xi_3 - 1) + (1/32)*(16*xi_3 - 1)*(-90*xi_2*std::pow(xi_3 - 1, 5) - 70*std::pow(-xi_3 + 1, 6) - 1485*std::pow(-xi_3 + 1, 2)*std::pow(-2*xi_2 - xi_3 + 1, 4) + 1287*(-xi_3 + 1)*std::pow(-2*xi_2 - xi_3 + 1, 5) + 630*std::pow(xi_3 - 1, 4)*std::pow(-2*xi_2 - xi_3 + 1, 2) + 330*std::pow(xi_3 - 1, 3)*std::pow(-2*xi_2 - xi_3 + 1, 3))/(xi_3 - 1) + (1/2)*(2*xi_1 + xi_2 + xi_3 - 1)*(-90*xi_2*std::pow(xi_3 - 1, 5) - 70*std::pow(-xi_3 + 1, 6) - 1485*std::pow(-xi_3 + 1, 2)*std::pow(-2*xi_2 - xi_3 + 1, 4) + 1287*(-xi_3 + 1)*std::pow(-2*xi_2 - xi_3 + 1, 5) + 630*std::pow(xi_3 - 1, 4)*std::pow(-2*xi_2 - xi_3 + 1, 2) + 330*std::pow(xi_3 - 1, 3)*std::pow(-2*xi_2 - xi_3 + 1, 3))/(xi_3 - 1) - 1/32*(16*xi_3 - 1)*(2*xi_1 + xi_2 + xi_3 - 1)*(-90*xi_2*std::pow(xi_3 - 1, 5) - 70*std::pow(-xi_3 + 1, 6) - 1485*std::pow(-xi_3 + 1, 2)*std::pow(-2*xi_2 - xi_3 + 1, 4) + 1287*(-xi_3 + 1)*std::pow(-2*xi_2 - xi_3 + 1, 5) + 630*std::pow(xi_3 - 1, 4)*std::pow(-2*xi_2 - xi_3 + 1, 2) + 330*std::pow(xi_3 - 1, 3)*std::pow(-2*xi_2 - xi_3 + 1, 3))/std::pow(xi_3 - 1, 2);
  98 => -(2*xi_1 + xi_2 + xi_3 - 1)*(4680*xi_2*std::pow(xi_3 - 1, 5) + 2555*std::pow(xi_3 - 1, 6) + 165*std::pow(xi_3 - 1, 5)*(4*xi_2 + 2*xi_3 - 2) - 10395*std::pow(xi_3 - 1, 4)*std::pow(2*xi_2 + xi_3 - 1, 2) - 6380*std::pow(xi_3 - 1, 3)*std::pow(2*xi_2 + xi_3 - 1, 3) + 36465*std::pow(xi_3 - 1, 2)*std::pow(2*xi_2 + xi_3 - 1, 4) - 30030*(xi_3 - 1)*std::pow(2*xi_2 + xi_3 - 1, 5) + 6006*(2*xi_3 - 2)*std::pow(2*xi_2 + xi_3 - 1, 5) - 5005*std::pow(2*xi_2 + xi_3 - 1, 6))/(64*xi_3 - 64) - (780*xi_2*std::pow(xi_3 - 1, 6) + 365*std::pow(xi_3 - 1, 7) + 165*std::pow(xi_3 - 1, 5)*std::pow(2*xi_2 + xi_3 - 1, 2) - 3740*std::pow(xi_3 - 1, 4)*std::pow(2*xi_2 + xi_3 - 1, 3) + 2145*std::pow(xi_3 - 1, 3)*std::pow(2*xi_2 + xi_3 - 1, 4) + 6006*std::pow(xi_3 - 1, 2)*std::pow(2*xi_2 + xi_3 - 1, 5) - 5005*(xi_3 - 1)*std::pow(2*xi_2 + xi_3 - 1, 6))/(64*xi_3 - 64) + 64*(2*xi_1 + xi_2 + xi_3 - 1)*(780*xi_2*std::pow(xi_3 - 1, 6) + 365*std::pow(xi_3 - 1, 7) + 165*std::pow(xi_3 - 1, 5)*std::pow(2*xi_2 + xi_3 - 1, 2) - 3740*std::pow(xi_3 - 1, 4)*std::pow(2*xi_2 + xi_3 - 1, 3) + 2145*std::pow(xi_3 - 1, 3)*std::pow(2*xi_2 + xi_3 - 1, 4) + 6006*std::pow(xi_3 - 1, 2)*std::pow(2*xi_2 + xi_3 - 1, 5) - 5005*(xi_3 - 1)*std::pow(2*xi_2 + xi_3 - 1, 6))/std::pow(64*xi_3 - 64, 2);
  99 => (1/32)*(-std::pow(xi_2 + xi_3 - 1, 2) + 3*std::pow(2*xi_1 + xi_2 + xi_3 - 1, 2))*(-3120*xi_3 + 21840*std::pow(2*xi_3 - 1, 4) + 32760*std::pow(2*xi_3 - 1, 3) + 10920*std::pow(2*xi_3 - 1, 2) + 960) + (1/32)*(12*xi_1 + 4*xi_2 + 4*xi_3 - 4)*(-600*xi_3 + 2184*std::pow(2*xi_3 - 1, 5) + 4095*std::pow(2*xi_3 - 1, 4) + 1820*std::pow(2*xi_3 - 1, 3) - 390*std::pow(2*xi_3 - 1, 2) + 283);
  100 => (1/8)*(-std::pow(xi_2 + xi_3 - 1, 2) + 3*std::pow(2*xi_1 + xi_2 + xi_3 - 1, 2))*(7*xi_2 + xi_3 - 1)*(4368*xi_3 + 3640*std::pow(2*xi_3 - 1, 3) + 5460*std::pow(2*xi_3 - 1, 2) - 2028) + (1/8)*(-std::pow(xi_2 + xi_3 - 1, 2) + 3*std::pow(2*xi_1 + xi_2 + xi_3 - 1, 2))*(156*xi_3 + 455*std::pow(2*xi_3 - 1, 4) + 910*std::pow(2*xi_3 - 1, 3) + 546*std::pow(2*xi_3 - 1, 2) - 87) + (1/8)*(7*xi_2 + xi_3 - 1)*(12*xi_1 + 4*xi_2 + 4*xi_3 - 4)*(156*xi_3 + 455*std::pow(2*xi_3 - 1, 4) + 910*std::pow(2*xi_3 - 1, 3) + 546*std::pow(2*xi_3 - 1, 2) - 87);
  101 => (std::pow(xi_2 + xi_3 - 1, 2) - 3*std::pow(2*xi_1 + xi_2 + xi_3 - 1, 2))*(4200*xi_3 + 1680*std::pow(2*xi_3 - 1, 2) - 1512)*(20*xi_2*std::pow(xi_3 - 1, 2) + 8*std::pow(xi_3 - 1, 3) - 9*(xi_3 - 1)*std::pow(2*xi_2 + xi_3 - 1, 2))/(8*xi_3 - 8) + (std::pow(xi_2 + xi_3 - 1, 2) - 3*std::pow(2*xi_1 + xi_2 + xi_3 - 1, 2))*(588*xi_3 + 280*std::pow(2*xi_3 - 1, 3) + 525*std::pow(2*xi_3 - 1, 2) - 249)*(20*xi_2*(2*xi_3 - 2) + 24*std::pow(xi_3 - 1, 2) - 9*(xi_3 - 1)*(4*xi_2 + 2*xi_3 - 2) - 9*std::pow(2*xi_2 + xi_3 - 1, 2))/(8*xi_3 - 8) + (20*xi_2*std::pow(xi_3 - 1, 2) + 8*std::pow(xi_3 - 1, 3) - 9*(xi_3 - 1)*std::pow(2*xi_2 + xi_3 - 1, 2))*(-12*xi_1 - 4*xi_2 - 4*xi_3 + 4)*(588*xi_3 + 280*std::pow(2*xi_3 - 1, 3) + 525*std::pow(2*xi_3 - 1, 2) - 249)/(8*xi_3 - 8) - 8*(std::pow(xi_2 + xi_3 - 1, 2) - 3*std::pow(2*xi_1 + xi_2 + xi_3 - 1, 2))*(20*xi_2*std::pow(xi_3 - 1, 2) + 8*std::pow(xi_3 - 1, 3) - 9*(xi_3 - 1)*std::pow(2*xi_2 + xi_3 - 1, 2))*(588*xi_3 + 280*std::pow(2*xi_3 - 1, 3) + 525*std::pow(2*xi_3 - 1, 2) - 249)/std::pow(8*xi_3 - 8, 2);
  102 => (1/16)*(240*xi_3 - 30)*(-std::pow(xi_2 + xi_3 - 1, 2) + 3*std::pow(2*xi_1 + xi_2 + xi_3 - 1, 2))*(126*xi_2*std::pow(xi_3 - 1, 3) - 225*std::pow(-xi_3 + 1, 2)*std::pow(-2*xi_2 - xi_3 + 1, 2) + 165*(-xi_3 + 1)*std::pow(-2*xi_2 - xi_3 + 1, 3) + 68*std::pow(xi_3 - 1, 4))/(xi_3 - 1) + (1/16)*(-std::pow(xi_2 + xi_3 - 1, 2) + 3*std::pow(2*xi_1 + xi_2 + xi_3 - 1, 2))*(90*xi_3 + 30*std::pow(2*xi_3 - 1, 2) - 29)*(378*xi_2*std::pow(xi_3 - 1, 2) - 225*std::pow(-xi_3 + 1, 2)*(4*xi_2 + 2*xi_3 - 2) - 495*(-xi_3 + 1)*std::pow(-2*xi_2 - xi_3 + 1, 2) + 272*std::pow(xi_3 - 1, 3) - 225*(2*xi_3 - 2)*std::pow(-2*xi_2 - xi_3 + 1, 2) - 165*std::pow(-2*xi_2 - xi_3 + 1, 3))/(xi_3 - 1) + (1/16)*(90*xi_3 + 30*std::pow(2*xi_3 - 1, 2) - 29)*(12*xi_1 + 4*xi_2 + 4*xi_3 - 4)*(126*xi_2*std::pow(xi_3 - 1, 3) - 225*std::pow(-xi_3 + 1, 2)*std::pow(-2*xi_2 - xi_3 + 1, 2) + 165*(-xi_3 + 1)*std::pow(-2*xi_2 - xi_3 + 1, 3) + 68*std::pow(xi_3 - 1, 4))/(xi_3 - 1) - 1/16*(-std::pow(xi_2 + xi_3 - 1, 2) + 3*std::pow(2*xi_1 + xi_2 + xi_3 - 1, 2))*(90*xi_3 + 30*std::pow(2*xi_3 - 1, 2) - 29)*(126*xi_2*std::pow(xi_3 - 1, 3) - 225*std::pow(-xi_3 + 1, 2)*std::pow(-2*xi_2 - xi_3 + 1, 2) + 165*(-xi_3 + 1)*std::pow(-2*xi_2 - xi_3 + 1, 3) + 68*std::pow(xi_3 - 1, 4))/std::pow(xi_3 - 1, 2);
  103 => (1/32)*(16*xi_3 - 1)*(-std::pow(xi_2 + xi_3 - 1, 2) + 3*std::pow(2*xi_1 + xi_2 + xi_3 - 1, 2))*(600*xi_2*std::pow(xi_3 - 1, 2) + 284*std::pow(xi_3 - 1, 3) + 330*std::pow(xi_3 - 1, 2)*(4*xi_2 + 2*xi_3 - 2) - 3300*(xi_3 - 1)*std::pow(2*xi_2 + xi_3 - 1, 2) + 330*(2*xi_3 - 2)*std::pow(2*xi_2 + xi_3 - 1, 2) + 1760*std::pow(2*xi_2 + xi_3 - 1, 3)) + (1/32)*(16*xi_3 - 1)*(12*xi_1 + 4*xi_2 + 4*xi_3 - 4)*(200*xi_2*std::pow(xi_3 - 1, 3) + 71*std::pow(xi_3 - 1, 4) + 330*std::pow(xi_3 - 1, 2)*std::pow(2*xi_2 + xi_3 - 1, 2) - 1100*(xi_3 - 1)*std::pow(2*xi_2 + xi_3 - 1, 3) + 715*std::pow(2*xi_2 + xi_3 - 1, 4)) + (1/2)*(-std::pow(xi_2 + xi_3 - 1, 2) + 3*std::pow(2*xi_1 + xi_2 + xi_3 - 1, 2))*(200*xi_2*std::pow(xi_3 - 1, 3) + 71*std::pow(xi_3 - 1, 4) + 330*std::pow(xi_3 - 1, 2)*std::pow(2*xi_2 + xi_3 - 1, 2) - 1100*(xi_3 - 1)*std::pow(2*xi_2 + xi_3 - 1, 3) + 715*std::pow(2*xi_2 + xi_3 - 1, 4));
  104 => (std::pow(xi_2 + xi_3 - 1, 2) - 3*std::pow(2*xi_1 + xi_2 + xi_3 - 1, 2))*(3850*xi_2*std::pow(xi_3 - 1, 4) + 2316*std::pow(xi_3 - 1, 5) - 990*std::pow(xi_3 - 1, 4)*(4*xi_2 + 2*xi_3 - 2) - 8250*std::pow(xi_3 - 1, 3)*std::pow(2*xi_2 + xi_3 - 1, 2) + 15730*std::pow(xi_3 - 1, 2)*std::pow(2*xi_2 + xi_3 - 1, 3) - 15015*(xi_3 - 1)*std::pow(2*xi_2 + xi_3 - 1, 4) + 5005*(2*xi_3 - 2)*std::pow(2*xi_2 + xi_3 - 1, 4) - 3003*std::pow(2*xi_2 + xi_3 - 1, 5))/(64*xi_3 - 64) + (-12*xi_1 - 4*xi_2 - 4*xi_3 + 4)*(770*xi_2*std::pow(xi_3 - 1, 5) + 386*std::pow(xi_3 - 1, 6) - 990*std::pow(xi_3 - 1, 4)*std::pow(2*xi_2 + xi_3 - 1, 2) - 1430*std::pow(xi_3 - 1, 3)*std::pow(2*xi_2 + xi_3 - 1, 3) + 5005*std::pow(xi_3 - 1, 2)*std::pow(2*xi_2 + xi_3 - 1, 4) - 3003*(xi_3 - 1)*std::pow(2*xi_2 + xi_3 - 1, 5))/(64*xi_3 - 64) - 64*(std::pow(xi_2 + xi_3 - 1, 2) - 3*std::pow(2*xi_1 + xi_2 + xi_3 - 1, 2))*(770*xi_2*std::pow(xi_3 - 1, 5) + 386*std::pow(xi_3 - 1, 6) - 990*std::pow(xi_3 - 1, 4)*std::pow(2*xi_2 + xi_3 - 1, 2) - 1430*std::pow(xi_3 - 1, 3)*std::pow(2*xi_2 + xi_3 - 1, 3) + 5005*std::pow(xi_3 - 1, 2)*std::pow(2*xi_2 + xi_3 - 1, 4) - 3003*(xi_3 - 1)*std::pow(2*xi_2 + xi_3 - 1, 5))/std::pow(64*xi_3 - 64, 2);
  105 => -(6*xi_1*std::pow(xi_2 + xi_3 - 1, 3) + 3*std::pow(xi_2 + xi_3 - 1, 4) - 5*(xi_2 + xi_3 - 1)*std::pow(2*xi_1 + xi_2 + xi_3 - 1, 3))*(4368*xi_3 + 3640*std::pow(2*xi_3 - 1, 3) + 5460*std::pow(2*xi_3 - 1, 2) - 2028)/(8*xi_2 + 8*xi_3 - 8) - (18*xi_1*std::pow(xi_2 + xi_3 - 1, 2) + 12*std::pow(xi_2 + xi_3 - 1, 3) - 15*(xi_2 + xi_3 - 1)*std::pow(2*xi_1 + xi_2 + xi_3 - 1, 2) - 5*std::pow(2*xi_1 + xi_2 + xi_3 - 1, 3))*(156*xi_3 + 455*std::pow(2*xi_3 - 1, 4) + 910*std::pow(2*xi_3 - 1, 3) + 546*std::pow(2*xi_3 - 1, 2) - 87)/(8*xi_2 + 8*xi_3 - 8) + 8*(6*xi_1*std::pow(xi_2 + xi_3 - 1, 3) + 3*std::pow(xi_2 + xi_3 - 1, 4) - 5*(xi_2 + xi_3 - 1)*std::pow(2*xi_1 + xi_2 + xi_3 - 1, 3))*(156*xi_3 + 455*std::pow(2*xi_3 - 1, 4) + 910*std::pow(2*xi_3 - 1, 3) + 546*std::pow(2*xi_3 - 1, 2) - 87)/std::pow(8*xi_2 + 8*xi_3 - 8, 2);
  106 => (1/8)*(9*xi_2 + xi_3 - 1)*(4200*xi_3 + 1680*std::pow(2*xi_3 - 1, 2) - 1512)*(6*xi_1*std::pow(xi_2 + xi_3 - 1, 3) + 5*(-xi_2 - xi_3 + 1)*std::pow(2*xi_1 + xi_2 + xi_3 - 1, 3) + 3*std::pow(xi_2 + xi_3 - 1, 4))/(-xi_2 - xi_3 + 1) + (1/8)*(9*xi_2 + xi_3 - 1)*(588*xi_3 + 280*std::pow(2*xi_3 - 1, 3) + 525*std::pow(2*xi_3 - 1, 2) - 249)*(18*xi_1*std::pow(xi_2 + xi_3 - 1, 2) + 15*(-xi_2 - xi_3 + 1)*std::pow(2*xi_1 + xi_2 + xi_3 - 1, 2) + 12*std::pow(xi_2 + xi_3 - 1, 3) - 5*std::pow(2*xi_1 + xi_2 + xi_3 - 1, 3))/(-xi_2 - xi_3 + 1) + (1/8)*(6*xi_1*std::pow(xi_2 + xi_3 - 1, 3) + 5*(-xi_2 - xi_3 + 1)*std::pow(2*xi_1 + xi_2 + xi_3 - 1, 3) + 3*std::pow(xi_2 + xi_3 - 1, 4))*(588*xi_3 + 280*std::pow(2*xi_3 - 1, 3) + 525*std::pow(2*xi_3 - 1, 2) - 249)/(-xi_2 - xi_3 + 1) + (1/8)*(9*xi_2 + xi_3 - 1)*(6*xi_1*std::pow(xi_2 + xi_3 - 1, 3) + 5*(-xi_2 - xi_3 + 1)*std::pow(2*xi_1 + xi_2 + xi_3 - 1, 3) + 3*std::pow(xi_2 + xi_3 - 1, 4))*(588*xi_3 + 280*std::pow(2*xi_3 - 1, 3) + 525*std::pow(2*xi_3 - 1, 2) - 249)/std::pow(-xi_2 - xi_3 + 1, 2);
  107 => (1/8)*(240*xi_3 - 30)*(6*xi_1*std::pow(xi_2 + xi_3 - 1, 3) + 5*(-xi_2 - xi_3 + 1)*std::pow(2*xi_1 + xi_2 + xi_3 - 1, 3) + 3*std::pow(xi_2 + xi_3 - 1, 4))*(140*xi_2*std::pow(xi_3 - 1, 2) + 55*(-xi_3 + 1)*std::pow(-2*xi_2 - xi_3 + 1, 2) + 51*std::pow(xi_3 - 1, 3))/((xi_3 - 1)*(xi_2 + xi_3 - 1)) + (1/8)*(90*xi_3 + 30*std::pow(2*xi_3 - 1, 2) - 29)*(6*xi_1*std::pow(xi_2 + xi_3 - 1, 3) + 5*(-xi_2 - xi_3 + 1)*std::pow(2*xi_1 + xi_2 + xi_3 - 1, 3) + 3*std::pow(xi_2 + xi_3 - 1, 4))*(140*xi_2*(2*xi_3 - 2) + 55*(-xi_3 + 1)*(4*xi_2 + 2*xi_3 - 2) + 153*std::pow(xi_3 - 1, 2) - 55*std::pow(-2*xi_2 - xi_3 + 1, 2))/((xi_3 - 1)*(xi_2 + xi_3 - 1)) + (1/8)*(90*xi_3 + 30*std::pow(2*xi_3 - 1, 2) - 29)*(140*xi_2*std::pow(xi_3 - 1, 2) + 55*(-xi_3 + 1)*std::pow(-2*xi_2 - xi_3 + 1, 2) + 51*std::pow(xi_3 - 1, 3))*(18*xi_1*std::pow(xi_2 + xi_3 - 1, 2) + 15*(-xi_2 - xi_3 + 1)*std::pow(2*xi_1 + xi_2 + xi_3 - 1, 2) + 12*std::pow(xi_2 + xi_3 - 1, 3) - 5*std::pow(2*xi_1 + xi_2 + xi_3 - 1, 3))/((xi_3 - 1)*(xi_2 + xi_3 - 1)) - 1/8*(90*xi_3 + 30*std::pow(2*xi_3 - 1, 2) - 29)*(6*xi_1*std::pow(xi_2 + xi_3 - 1, 3) + 5*(-xi_2 - xi_3 + 1)*std::pow(2*xi_1 + xi_2 + xi_3 - 1, 3) + 3*std::pow(xi_2 + xi_3 - 1, 4))*(140*xi_2*std::pow(xi_3 - 1, 2) + 55*(-xi_3 + 1)*std::pow(-2*xi_2 - xi_3 + 1, 2) + 51*std::pow(xi_3 - 1, 3))/((xi_3 - 1)*std::pow(xi_2 + xi_3 - 1, 2)) - 1/8*(90*xi_3 + 30*std::pow(2*xi_3 - 1, 2) - 29)*(6*xi_1*std::pow(xi_2 + xi_3 - 1, 3) + 5*(-xi_2 - xi_3 + 1)*std::pow(2*xi_1 + xi_2 + xi_3 - 1, 3) + 3*std::pow(xi_2 + xi_3 - 1, 4))*(140*xi_2*std::pow(xi_3 - 1, 2) + 55*(-xi_3 + 1)*std::pow(-2*xi_2 - xi_3 + 1, 2) + 51*std::pow(xi_3 - 1, 3))/(std::pow(xi_3 - 1, 2)*(xi_2 + xi_3 - 1));
  108 => -(16*xi_3 - 1)*(6*xi_1*std::pow(xi_2 + xi_3 - 1, 3) + 3*std::pow(xi_2 + xi_3 - 1, 4) - 5*(xi_2 + xi_3 - 1)*std::pow(2*xi_1 + xi_2 + xi_3 - 1, 3))*(198*xi_2*(2*xi_3 - 2) + 276*std::pow(xi_3 - 1, 2) - 231*(xi_3 - 1)*(4*xi_2 + 2*xi_3 - 2) + 198*std::pow(2*xi_2 + xi_3 - 1, 2))/(8*xi_2 + 8*xi_3 - 8) - (16*xi_3 - 1)*(18*xi_1*std::pow(xi_2 + xi_3 - 1, 2) + 12*std::pow(xi_2 + xi_3 - 1, 3) - 15*(xi_2 + xi_3 - 1)*std::pow(2*xi_1 + xi_2 + xi_3 - 1, 2) - 5*std::pow(2*xi_1 + xi_2 + xi_3 - 1, 3))*(198*xi_2*std::pow(xi_3 - 1, 2) + 92*std::pow(xi_3 - 1, 3) - 231*(xi_3 - 1)*std::pow(2*xi_2 + xi_3 - 1, 2) + 143*std::pow(2*xi_2 + xi_3 - 1, 3))/(8*xi_2 + 8*xi_3 - 8) + 8*(16*xi_3 - 1)*(6*xi_1*std::pow(xi_2 + xi_3 - 1, 3) + 3*std::pow(xi_2 + xi_3 - 1, 4) - 5*(xi_2 + xi_3 - 1)*std::pow(2*xi_1 + xi_2 + xi_3 - 1, 3))*(198*xi_2*std::pow(xi_3 - 1, 2) + 92*std::pow(xi_3 - 1, 3) - 231*(xi_3 - 1)*std::pow(2*xi_2 + xi_3 - 1, 2) + 143*std::pow(2*xi_2 + xi_3 - 1, 3))/std::pow(8*xi_2 + 8*xi_3 - 8, 2) - 16*(6*xi_1*std::pow(xi_2 + xi_3 - 1, 3) + 3*std::pow(xi_2 + xi_3 - 1, 4) - 5*(xi_2 + xi_3 - 1)*std::pow(2*xi_1 + xi_2 + xi_3 - 1, 3))*(198*xi_2*std::pow(xi_3 - 1, 2) + 92*std::pow(xi_3 - 1, 3) - 231*(xi_3 - 1)*std::pow(2*xi_2 + xi_3 - 1, 2) + 143*std::pow(2*xi_2 + xi_3 - 1, 3))/(8*xi_2 + 8*xi_3 - 8);
  109 => (6*xi_1*std::pow(xi_2 + xi_3 - 1, 3) + 3*std::pow(xi_2 + xi_3 - 1, 4) - 5*(xi_2 + xi_3 - 1)*std::pow(2*xi_1 + xi_2 + xi_3 - 1, 3))*(504*xi_2*std::pow(xi_3 - 1, 2) + 508*std::pow(xi_3 - 1, 3) - 1326*std::pow(xi_3 - 1, 2)*(4*xi_2 + 2*xi_3 - 2) + 7644*(xi_3 - 1)*std::pow(2*xi_2 + xi_3 - 1, 2) - 1326*(2*xi_3 - 2)*std::pow(2*xi_2 + xi_3 - 1, 2) - 2912*std::pow(2*xi_2 + xi_3 - 1, 3))/(32*xi_2 + 32*xi_3 - 32) + (18*xi_1*std::pow(xi_2 + xi_3 - 1, 2) + 12*std::pow(xi_2 + xi_3 - 1, 3) - 15*(xi_2 + xi_3 - 1)*std::pow(2*xi_1 + xi_2 + xi_3 - 1, 2) - 5*std::pow(2*xi_1 + xi_2 + xi_3 - 1, 3))*(168*xi_2*std::pow(xi_3 - 1, 3) + 127*std::pow(xi_3 - 1, 4) - 1326*std::pow(xi_3 - 1, 2)*std::pow(2*xi_2 + xi_3 - 1, 2) + 2548*(xi_3 - 1)*std::pow(2*xi_2 + xi_3 - 1, 3) - 1365*std::pow(2*xi_2 + xi_3 - 1, 4))/(32*xi_2 + 32*xi_3 - 32) - 32*(6*xi_1*std::pow(xi_2 + xi_3 - 1, 3) + 3*std::pow(xi_2 + xi_3 - 1, 4) - 5*(xi_2 + xi_3 - 1)*std::pow(2*xi_1 + xi_2 + xi_3 - 1, 3))*(168*xi_2*std::pow(xi_3 - 1, 3) + 127*std::pow(xi_3 - 1, 4) - 1326*std::pow(xi_3 - 1, 2)*std::pow(2*xi_2 + xi_3 - 1, 2) + 2548*(xi_3 - 1)*std::pow(2*xi_2 + xi_3 - 1, 3) - 1365*std::pow(2*xi_2 + xi_3 - 1, 4))/std::pow(32*xi_2 + 32*xi_3 - 32, 2);
  110 => (1/32)*(4200*xi_3 + 1680*std::pow(2*xi_3 - 1, 2) - 1512)*(3*std::pow(xi_2 + xi_3 - 1, 4) - 30*std::pow(xi_2 + xi_3 - 1, 2)*std::pow(2*xi_1 + xi_2 + xi_3 - 1, 2) + 35*std::pow(2*xi_1 + xi_2 + xi_3 - 1, 4)) + (1/32)*(588*xi_3 + 280*std::pow(2*xi_3 - 1, 3) + 525*std::pow(2*xi_3 - 1, 2) - 249)*(12*std::pow(xi_2 + xi_3 - 1, 3) - 30*std::pow(xi_2 + xi_3 - 1, 2)*(4*xi_1 + 2*xi_2 + 2*xi_3 - 2) - 30*(2*xi_2 + 2*xi_3 - 2)*std::pow(2*xi_1 + xi_2 + xi_3 - 1, 2) + 140*std::pow(2*xi_1 + xi_2 + xi_3 - 1, 3));
  111 => (1/8)*(240*xi_3 - 30)*(11*xi_2 + xi_3 - 1)*(3*std::pow(xi_2 + xi_3 - 1, 4) - 30*std::pow(xi_2 + xi_3 - 1, 2)*std::pow(2*xi_1 + xi_2 + xi_3 - 1, 2) + 35*std::pow(2*xi_1 + xi_2 + xi_3 - 1, 4)) + (1/8)*(11*xi_2 + xi_3 - 1)*(90*xi_3 + 30*std::pow(2*xi_3 - 1, 2) - 29)*(12*std::pow(xi_2 + xi_3 - 1, 3) - 30*std::pow(xi_2 + xi_3 - 1, 2)*(4*xi_1 + 2*xi_2 + 2*xi_3 - 2) - 30*(2*xi_2 + 2*xi_3 - 2)*std::pow(2*xi_1 + xi_2 + xi_3 - 1, 2) + 140*std::pow(2*xi_1 + xi_2 + xi_3 - 1, 3)) + (1/8)*(90*xi_3 + 30*std::pow(2*xi_3 - 1, 2) - 29)*(3*std::pow(xi_2 + xi_3 - 1, 4) - 30*std::pow(xi_2 + xi_3 - 1, 2)*std::pow(2*xi_1 + xi_2 + xi_3 - 1, 2) + 35*std::pow(2*xi_1 + xi_2 + xi_3 - 1, 4));
  112 => -(16*xi_3 - 1)*(108*xi_2*std::pow(xi_3 - 1, 2) + 37*std::pow(xi_3 - 1, 3) - 39*(xi_3 - 1)*std::pow(2*xi_2 + xi_3 - 1, 2))*(12*std::pow(xi_2 + xi_3 - 1, 3) - 30*std::pow(xi_2 + xi_3 - 1, 2)*(4*xi_1 + 2*xi_2 + 2*xi_3 - 2) - 30*(2*xi_2 + 2*xi_3 - 2)*std::pow(2*xi_1 + xi_2 + xi_3 - 1, 2) + 140*std::pow(2*xi_1 + xi_2 + xi_3 - 1, 3))/(16*xi_3 - 16) - (16*xi_3 - 1)*(3*std::pow(xi_2 + xi_3 - 1, 4) - 30*std::pow(xi_2 + xi_3 - 1, 2)*std::pow(2*xi_1 + xi_2 + xi_3 - 1, 2) + 35*std::pow(2*xi_1 + xi_2 + xi_3 - 1, 4))*(108*xi_2*(2*xi_3 - 2) + 111*std::pow(xi_3 - 1, 2) - 39*(xi_3 - 1)*(4*xi_2 + 2*xi_3 - 2) - 39*std::pow(2*xi_2 + xi_3 - 1, 2))/(16*xi_3 - 16) - 16*(108*xi_2*std::pow(xi_3 - 1, 2) + 37*std::pow(xi_3 - 1, 3) - 39*(xi_3 - 1)*std::pow(2*xi_2 + xi_3 - 1, 2))*(3*std::pow(xi_2 + xi_3 - 1, 4) - 30*std::pow(xi_2 + xi_3 - 1, 2)*std::pow(2*xi_1 + xi_2 + xi_3 - 1, 2) + 35*std::pow(2*xi_1 + xi_2 + xi_3 - 1, 4))/(16*xi_3 - 16) + 16*(16*xi_3 - 1)*(108*xi_2*std::pow(xi_3 - 1, 2) + 37*std::pow(xi_3 - 1, 3) - 39*(xi_3 - 1)*std::pow(2*xi_2 + xi_3 - 1, 2))*(3*std::pow(xi_2 + xi_3 - 1, 4) - 30*std::pow(xi_2 + xi_3 - 1, 2)*std::pow(2*xi_1 + xi_2 + xi_3 - 1, 2) + 35*std::pow(2*xi_1 + xi_2 + xi_3 - 1, 4))/std::pow(16*xi_3 - 16, 2);
  113 => (1/64)*(3*std::pow(xi_2 + xi_3 - 1, 4) - 30*std::pow(xi_2 + xi_3 - 1, 2)*std::pow(2*xi_1 + xi_2 + xi_3 - 1, 2) + 35*std::pow(2*xi_1 + xi_2 + xi_3 - 1, 4))*(2574*xi_2*std::pow(xi_3 - 1, 2) - 819*std::pow(-xi_3 + 1, 2)*(4*xi_2 + 2*xi_3 - 2) - 1365*(-xi_3 + 1)*std::pow(-2*xi_2 - xi_3 + 1, 2) + 1488*std::pow(xi_3 - 1, 3) - 819*(2*xi_3 - 2)*std::pow(-2*xi_2 - xi_3 + 1, 2) - 455*std::pow(-2*xi_2 - xi_3 + 1, 3))/(xi_3 - 1) + (1/64)*(858*xi_2*std::pow(xi_3 - 1, 3) - 819*std::pow(-xi_3 + 1, 2)*std::pow(-2*xi_2 - xi_3 + 1, 2) + 455*(-xi_3 + 1)*std::pow(-2*xi_2 - xi_3 + 1, 3) + 372*std::pow(xi_3 - 1, 4))*(12*std::pow(xi_2 + xi_3 - 1, 3) - 30*std::pow(xi_2 + xi_3 - 1, 2)*(4*xi_1 + 2*xi_2 + 2*xi_3 - 2) - 30*(2*xi_2 + 2*xi_3 - 2)*std::pow(2*xi_1 + xi_2 + xi_3 - 1, 2) + 140*std::pow(2*xi_1 + xi_2 + xi_3 - 1, 3))/(xi_3 - 1) - 1/64*(3*std::pow(xi_2 + xi_3 - 1, 4) - 30*std::pow(xi_2 + xi_3 - 1, 2)*std::pow(2*xi_1 + xi_2 + xi_3 - 1, 2) + 35*std::pow(2*xi_1 + xi_2 + xi_3 - 1, 4))*(858*xi_2*std::pow(xi_3 - 1, 3) - 819*std::pow(-xi_3 + 1, 2)*std::pow(-2*xi_2 - xi_3 + 1, 2) + 455*(-xi_3 + 1)*std::pow(-2*xi_2 - xi_3 + 1, 3) + 372*std::pow(xi_3 - 1, 4))/std::pow(xi_3 - 1, 2);
  114 => (1/8)*(240*xi_3 - 30)*(30*xi_1*std::pow(xi_2 + xi_3 - 1, 5) + 63*(-xi_2 - xi_3 + 1)*std::pow(-2*xi_1 - xi_2 - xi_3 + 1, 5) + 15*std::pow(xi_2 + xi_3 - 1, 6) + 70*std::pow(xi_2 + xi_3 - 1, 3)*std::pow(-2*xi_1 - xi_2 - xi_3 + 1, 3))/(xi_2 + xi_3 - 1) + (1/8)*(90*xi_3 + 30*std::pow(2*xi_3 - 1, 2) - 29)*(150*xi_1*std::pow(xi_2 + xi_3 - 1, 4) - 315*(-xi_2 - xi_3 + 1)*std::pow(-2*xi_1 - xi_2 - xi_3 + 1, 4) + 90*std::pow(xi_2 + xi_3 - 1, 5) - 210*std::pow(xi_2 + xi_3 - 1, 3)*std::pow(-2*xi_1 - xi_2 - xi_3 + 1, 2) + 210*std::pow(xi_2 + xi_3 - 1, 2)*std::pow(-2*xi_1 - xi_2 - xi_3 + 1, 3) - 63*std::pow(-2*xi_1 - xi_2 - xi_3 + 1, 5))/(xi_2 + xi_3 - 1) - 1/8*(90*xi_3 + 30*std::pow(2*xi_3 - 1, 2) - 29)*(30*xi_1*std::pow(xi_2 + xi_3 - 1, 5) + 63*(-xi_2 - xi_3 + 1)*std::pow(-2*xi_1 - xi_2 - xi_3 + 1, 5) + 15*std::pow(xi_2 + xi_3 - 1, 6) + 70*std::pow(xi_2 + xi_3 - 1, 3)*std::pow(-2*xi_1 - xi_2 - xi_3 + 1, 3))/std::pow(xi_2 + xi_3 - 1, 2);
  115 => (1/8)*(16*xi_3 - 1)*(13*xi_2 + xi_3 - 1)*(150*xi_1*std::pow(xi_2 + xi_3 - 1, 4) - 315*(-xi_2 - xi_3 + 1)*std::pow(-2*xi_1 - xi_2 - xi_3 + 1, 4) + 90*std::pow(xi_2 + xi_3 - 1, 5) - 210*std::pow(xi_2 + xi_3 - 1, 3)*std::pow(-2*xi_1 - xi_2 - xi_3 + 1, 2) + 210*std::pow(xi_2 + xi_3 - 1, 2)*std::pow(-2*xi_1 - xi_2 - xi_3 + 1, 3) - 63*std::pow(-2*xi_1 - xi_2 - xi_3 + 1, 5))/(xi_2 + xi_3 - 1) + (1/8)*(16*xi_3 - 1)*(30*xi_1*std::pow(xi_2 + xi_3 - 1, 5) + 63*(-xi_2 - xi_3 + 1)*std::pow(-2*xi_1 - xi_2 - xi_3 + 1, 5) + 15*std::pow(xi_2 + xi_3 - 1, 6) + 70*std::pow(xi_2 + xi_3 - 1, 3)*std::pow(-2*xi_1 - xi_2 - xi_3 + 1, 3))/(xi_2 + xi_3 - 1) - 1/8*(16*xi_3 - 1)*(13*xi_2 + xi_3 - 1)*(30*xi_1*std::pow(xi_2 + xi_3 - 1, 5) + 63*(-xi_2 - xi_3 + 1)*std::pow(-2*xi_1 - xi_2 - xi_3 + 1, 5) + 15*std::pow(xi_2 + xi_3 - 1, 6) + 70*std::pow(xi_2 + xi_3 - 1, 3)*std::pow(-2*xi_1 - xi_2 - xi_3 + 1, 3))/std::pow(xi_2 + xi_3 - 1, 2) + 2*(13*xi_2 + xi_3 - 1)*(30*xi_1*std::pow(xi_2 + xi_3 - 1, 5) + 63*(-xi_2 - xi_3 + 1)*std::pow(-2*xi_1 - xi_2 - xi_3 + 1, 5) + 15*std::pow(xi_2 + xi_3 - 1, 6) + 70*std::pow(xi_2 + xi_3 - 1, 3)*std::pow(-2*xi_1 - xi_2 - xi_3 + 1, 3))/(xi_2 + xi_3 - 1);
  116 => -1/32*(308*xi_2*std::pow(xi_3 - 1, 2) + 101*std::pow(xi_3 - 1, 3) - 105*(xi_3 - 1)*std::pow(2*xi_2 + xi_3 - 1, 2))*(150*xi_1*std::pow(xi_2 + xi_3 - 1, 4) + 90*std::pow(xi_2 + xi_3 - 1, 5) - 210*std::pow(xi_2 + xi_3 - 1, 3)*std::pow(2*xi_1 + xi_2 + xi_3 - 1, 2) - 210*std::pow(xi_2 + xi_3 - 1, 2)*std::pow(2*xi_1 + xi_2 + xi_3 - 1, 3) + 315*(xi_2 + xi_3 - 1)*std::pow(2*xi_1 + xi_2 + xi_3 - 1, 4) + 63*std::pow(2*xi_1 + xi_2 + xi_3 - 1, 5))/((xi_3 - 1)*(xi_2 + xi_3 - 1)) - 1/32*(30*xi_1*std::pow(xi_2 + xi_3 - 1, 5) + 15*std::pow(xi_2 + xi_3 - 1, 6) - 70*std::pow(xi_2 + xi_3 - 1, 3)*std::pow(2*xi_1 + xi_2 + xi_3 - 1, 3) + 63*(xi_2 + xi_3 - 1)*std::pow(2*xi_1 + xi_2 + xi_3 - 1, 5))*(308*xi_2*(2*xi_3 - 2) + 303*std::pow(xi_3 - 1, 2) - 105*(xi_3 - 1)*(4*xi_2 + 2*xi_3 - 2) - 105*std::pow(2*xi_2 + xi_3 - 1, 2))/((xi_3 - 1)*(xi_2 + xi_3 - 1)) + (1/32)*(308*xi_2*std::pow(xi_3 - 1, 2) + 101*std::pow(xi_3 - 1, 3) - 105*(xi_3 - 1)*std::pow(2*xi_2 + xi_3 - 1, 2))*(30*xi_1*std::pow(xi_2 + xi_3 - 1, 5) + 15*std::pow(xi_2 + xi_3 - 1, 6) - 70*std::pow(xi_2 + xi_3 - 1, 3)*std::pow(2*xi_1 + xi_2 + xi_3 - 1, 3) + 63*(xi_2 + xi_3 - 1)*std::pow(2*xi_1 + xi_2 + xi_3 - 1, 5))/((xi_3 - 1)*std::pow(xi_2 + xi_3 - 1, 2)) + (1/32)*(308*xi_2*std::pow(xi_3 - 1, 2) + 101*std::pow(xi_3 - 1, 3) - 105*(xi_3 - 1)*std::pow(2*xi_2 + xi_3 - 1, 2))*(30*xi_1*std::pow(xi_2 + xi_3 - 1, 5) + 15*std::pow(xi_2 + xi_3 - 1, 6) - 70*std::pow(xi_2 + xi_3 - 1, 3)*std::pow(2*xi_1 + xi_2 + xi_3 - 1, 3) + 63*(xi_2 + xi_3 - 1)*std::pow(2*xi_1 + xi_2 + xi_3 - 1, 5))/(std::pow(xi_3 - 1, 2)*(xi_2 + xi_3 - 1));
  117 => (1/16)*(16*xi_3 - 1)*(-30*std::pow(xi_2 + xi_3 - 1, 5) + 105*std::pow(xi_2 + xi_3 - 1, 4)*(4*xi_1 + 2*xi_2 + 2*xi_3 - 2) + 420*std::pow(xi_2 + xi_3 - 1, 3)*std::pow(2*xi_1 + xi_2 + xi_3 - 1, 2) - 1260*std::pow(xi_2 + xi_3 - 1, 2)*std::pow(2*xi_1 + xi_2 + xi_3 - 1, 3) - 315*(2*xi_2 + 2*xi_3 - 2)*std::pow(2*xi_1 + xi_2 + xi_3 - 1, 4) + 1386*std::pow(2*xi_1 + xi_2 + xi_3 - 1, 5)) - 5*std::pow(xi_2 + xi_3 - 1, 6) + 105*std::pow(xi_2 + xi_3 - 1, 4)*std::pow(2*xi_1 + xi_2 + xi_3 - 1, 2) - 315*std::pow(xi_2 + xi_3 - 1, 2)*std::pow(2*xi_1 + xi_2 + xi_3 - 1, 4) + 231*std::pow(2*xi_1 + xi_2 + xi_3 - 1, 6);
  118 => -5/16*std::pow(xi_2 + xi_3 - 1, 6) + (105/16)*std::pow(xi_2 + xi_3 - 1, 4)*std::pow(2*xi_1 + xi_2 + xi_3 - 1, 2) - 315/16*std::pow(xi_2 + xi_3 - 1, 2)*std::pow(2*xi_1 + xi_2 + xi_3 - 1, 4) + (1/16)*(15*xi_2 + xi_3 - 1)*(-30*std::pow(xi_2 + xi_3 - 1, 5) + 105*std::pow(xi_2 + xi_3 - 1, 4)*(4*xi_1 + 2*xi_2 + 2*xi_3 - 2) + 420*std::pow(xi_2 + xi_3 - 1, 3)*std::pow(2*xi_1 + xi_2 + xi_3 - 1, 2) - 1260*std::pow(xi_2 + xi_3 - 1, 2)*std::pow(2*xi_1 + xi_2 + xi_3 - 1, 3) - 315*(2*xi_2 + 2*xi_3 - 2)*std::pow(2*xi_1 + xi_2 + xi_3 - 1, 4) + 1386*std::pow(2*xi_1 + xi_2 + xi_3 - 1, 5)) + (231/16)*std::pow(2*xi_1 + xi_2 + xi_3 - 1, 6);
  119 => -(490*xi_1*std::pow(xi_2 + xi_3 - 1, 6) + 280*std::pow(xi_2 + xi_3 - 1, 7) - 945*std::pow(xi_2 + xi_3 - 1, 5)*std::pow(2*xi_1 + xi_2 + xi_3 - 1, 2) - 1575*std::pow(xi_2 + xi_3 - 1, 4)*std::pow(2*xi_1 + xi_2 + xi_3 - 1, 3) + 3465*std::pow(xi_2 + xi_3 - 1, 3)*std::pow(2*xi_1 + xi_2 + xi_3 - 1, 4) + 2079*std::pow(xi_2 + xi_3 - 1, 2)*std::pow(2*xi_1 + xi_2 + xi_3 - 1, 5) - 3003*(xi_2 + xi_3 - 1)*std::pow(2*xi_1 + xi_2 + xi_3 - 1, 6) - 429*std::pow(2*xi_1 + xi_2 + xi_3 - 1, 7))/(16*xi_2 + 16*xi_3 - 16) + 16*(70*xi_1*std::pow(xi_2 + xi_3 - 1, 7) + 35*std::pow(xi_2 + xi_3 - 1, 8) - 315*std::pow(xi_2 + xi_3 - 1, 5)*std::pow(2*xi_1 + xi_2 + xi_3 - 1, 3) + 693*std::pow(xi_2 + xi_3 - 1, 3)*std::pow(2*xi_1 + xi_2 + xi_3 - 1, 5) - 429*(xi_2 + xi_3 - 1)*std::pow(2*xi_1 + xi_2 + xi_3 - 1, 7))/std::pow(16*xi_2 + 16*xi_3 - 16, 2);
  120 => 350064*std::pow(xi_3, 7) - 1089088*std::pow(xi_3, 6) + 1345344*std::pow(xi_3, 5) - 840840*std::pow(xi_3, 4) + 280280*std::pow(xi_3, 3) - 48048*std::pow(xi_3, 2) + 3696*xi_3 - 88;
  121 => (63/4)*xi_3 + (1989/8)*std::pow(2*xi_3 - 1, 7) + (1547/4)*std::pow(2*xi_3 - 1, 6) - 273/8*std::pow(2*xi_3 - 1, 5) - 4095/16*std::pow(2*xi_3 - 1, 4) - 455/8*std::pow(2*xi_3 - 1, 3) + (273/8)*std::pow(2*xi_3 - 1, 2) + (1/16)*(3*xi_2 + xi_3 - 1)*(4368*xi_3 + 55692*std::pow(2*xi_3 - 1, 6) + 74256*std::pow(2*xi_3 - 1, 5) - 5460*std::pow(2*xi_3 - 1, 4) - 32760*std::pow(2*xi_3 - 1, 3) - 5460*std::pow(2*xi_3 - 1, 2) - 1932) - 133/16;
  122 => -(4*xi_2*std::pow(xi_3 - 1, 2) + 3*std::pow(xi_3 - 1, 3) - 5*(xi_3 - 1)*std::pow(2*xi_2 + xi_3 - 1, 2))*(-10920*xi_3 + 55692*std::pow(2*xi_3 - 1, 5) + 92820*std::pow(2*xi_3 - 1, 4) + 32760*std::pow(2*xi_3 - 1, 3) - 10920*std::pow(2*xi_3 - 1, 2) + 5304)/(32*xi_3 - 32) - (4*xi_2*(2*xi_3 - 2) + 9*std::pow(xi_3 - 1, 2) - 5*(xi_3 - 1)*(4*xi_2 + 2*xi_3 - 2) - 5*std::pow(2*xi_2 + xi_3 - 1, 2))*(-156*xi_3 + 4641*std::pow(2*xi_3 - 1, 6) + 9282*std::pow(2*xi_3 - 1, 5) + 4095*std::pow(2*xi_3 - 1, 4) - 1820*std::pow(2*xi_3 - 1, 3) - 1365*std::pow(2*xi_3 - 1, 2) + 107)/(32*xi_3 - 32) + 32*(4*xi_2*std::pow(xi_3 - 1, 2) + 3*std::pow(xi_3 - 1, 3) - 5*(xi_3 - 1)*std::pow(2*xi_2 + xi_3 - 1, 2))*(-156*xi_3 + 4641*std::pow(2*xi_3 - 1, 6) + 9282*std::pow(2*xi_3 - 1, 5) + 4095*std::pow(2*xi_3 - 1, 4) - 1820*std::pow(2*xi_3 - 1, 3) - 1365*std::pow(2*xi_3 - 1, 2) + 107)/std::pow(32*xi_3 - 32, 2);
  123 => -(30*xi_2*std::pow(xi_3 - 1, 3) + 12*std::pow(xi_3 - 1, 4) + 15*std::pow(xi_3 - 1, 2)*std::pow(2*xi_2 + xi_3 - 1, 2) - 35*(xi_3 - 1)*std::pow(2*xi_2 + xi_3 - 1, 3))*(1680*xi_3 + 10710*std::pow(2*xi_3 - 1, 4) + 19040*std::pow(2*xi_3 - 1, 3) + 9660*std::pow(2*xi_3 - 1, 2) - 1050)/(32*xi_3 - 32) - (-210*xi_3 + 1071*std::pow(2*xi_3 - 1, 5) + 2380*std::pow(2*xi_3 - 1, 4) + 1610*std::pow(2*xi_3 - 1, 3) + 210*std::pow(2*xi_3 - 1, 2) + 87)*(90*xi_2*std::pow(xi_3 - 1, 2) + 48*std::pow(xi_3 - 1, 3) + 15*std::pow(xi_3 - 1, 2)*(4*xi_2 + 2*xi_3 - 2) - 105*(xi_3 - 1)*std::pow(2*xi_2 + xi_3 - 1, 2) + 15*(2*xi_3 - 2)*std::pow(2*xi_2 + xi_3 - 1, 2) - 35*std::pow(2*xi_2 + xi_3 - 1, 3))/(32*xi_3 - 32) + 32*(30*xi_2*std::pow(xi_3 - 1, 3) + 12*std::pow(xi_3 - 1, 4) + 15*std::pow(xi_3 - 1, 2)*std::pow(2*xi_2 + xi_3 - 1, 2) - 35*(xi_3 - 1)*std::pow(2*xi_2 + xi_3 - 1, 3))*(-210*xi_3 + 1071*std::pow(2*xi_3 - 1, 5) + 2380*std::pow(2*xi_3 - 1, 4) + 1610*std::pow(2*xi_3 - 1, 3) + 210*std::pow(2*xi_3 - 1, 2) + 87)/std::pow(32*xi_3 - 32, 2);
  124 => (1/32)*(9840*xi_3 + 6120*std::pow(2*xi_3 - 1, 3) + 10200*std::pow(2*xi_3 - 1, 2) - 4320)*(24*xi_2*std::pow(xi_3 - 1, 3) + 15*std::pow(xi_3 - 1, 4) - 42*std::pow(xi_3 - 1, 2)*std::pow(2*xi_2 + xi_3 - 1, 2) - 28*(xi_3 - 1)*std::pow(2*xi_2 + xi_3 - 1, 3) + 63*std::pow(2*xi_2 + xi_3 - 1, 4)) + (1/32)*(600*xi_3 + 765*std::pow(2*xi_3 - 1, 4) + 1700*std::pow(2*xi_3 - 1, 3) + 1230*std::pow(2*xi_3 - 1, 2) - 291)*(72*xi_2*std::pow(xi_3 - 1, 2) + 60*std::pow(xi_3 - 1, 3) - 42*std::pow(xi_3 - 1, 2)*(4*xi_2 + 2*xi_3 - 2) - 84*(xi_3 - 1)*std::pow(2*xi_2 + xi_3 - 1, 2) - 42*(2*xi_3 - 2)*std::pow(2*xi_2 + xi_3 - 1, 2) + 224*std::pow(2*xi_2 + xi_3 - 1, 3));
  125 => (1/16)*(1632*xi_3 + 612*std::pow(2*xi_3 - 1, 2) - 564)*(70*xi_2*std::pow(xi_3 - 1, 5) - 105*std::pow(-xi_3 + 1, 2)*std::pow(-2*xi_2 - xi_3 + 1, 4) + 231*(-xi_3 + 1)*std::pow(-2*xi_2 - xi_3 + 1, 5) + 30*std::pow(xi_3 - 1, 6) + 70*std::pow(xi_3 - 1, 4)*std::pow(-2*xi_2 - xi_3 + 1, 2) + 210*std::pow(xi_3 - 1, 3)*std::pow(-2*xi_2 - xi_3 + 1, 3))/(xi_3 - 1) + (1/16)*(252*xi_3 + 102*std::pow(2*xi_3 - 1, 3) + 204*std::pow(2*xi_3 - 1, 2) - 103)*(350*xi_2*std::pow(xi_3 - 1, 4) + 420*std::pow(-xi_3 + 1, 2)*std::pow(-2*xi_2 - xi_3 + 1, 3) - 1155*(-xi_3 + 1)*std::pow(-2*xi_2 - xi_3 + 1, 4) + 180*std::pow(xi_3 - 1, 5) + 70*std::pow(xi_3 - 1, 4)*(4*xi_2 + 2*xi_3 - 2) - 350*std::pow(xi_3 - 1, 3)*std::pow(-2*xi_2 - xi_3 + 1, 2) + 630*std::pow(xi_3 - 1, 2)*std::pow(-2*xi_2 - xi_3 + 1, 3) - 105*(2*xi_3 - 2)*std::pow(-2*xi_2 - xi_3 + 1, 4) - 231*std::pow(-2*xi_2 - xi_3 + 1, 5))/(xi_3 - 1) - 1/16*(252*xi_3 + 102*std::pow(2*xi_3 - 1, 3) + 204*std::pow(2*xi_3 - 1, 2) - 103)*(70*xi_2*std::pow(xi_3 - 1, 5) - 105*std::pow(-xi_3 + 1, 2)*std::pow(-2*xi_2 - xi_3 + 1, 4) + 231*(-xi_3 + 1)*std::pow(-2*xi_2 - xi_3 + 1, 5) + 30*std::pow(xi_3 - 1, 6) + 70*std::pow(xi_3 - 1, 4)*std::pow(-2*xi_2 - xi_3 + 1, 2) + 210*std::pow(xi_3 - 1, 3)*std::pow(-2*xi_2 - xi_3 + 1, 3))/std::pow(xi_3 - 1, 2);
  126 => -(1224*xi_3 - 136)*(60*xi_2*std::pow(xi_3 - 1, 6) + 35*std::pow(xi_3 - 1, 7) - 135*std::pow(xi_3 - 1, 5)*std::pow(2*xi_2 + xi_3 - 1, 2) - 180*std::pow(xi_3 - 1, 4)*std::pow(2*xi_2 + xi_3 - 1, 3) + 495*std::pow(xi_3 - 1, 3)*std::pow(2*xi_2 + xi_3 - 1, 4) + 198*std::pow(xi_3 - 1, 2)*std::pow(2*xi_2 + xi_3 - 1, 5) - 429*(xi_3 - 1)*std::pow(2*xi_2 + xi_3 - 1, 6))/(64*xi_3 - 64) - (476*xi_3 + 153*std::pow(2*xi_3 - 1, 2) - 149)*(360*xi_2*std::pow(xi_3 - 1, 5) + 245*std::pow(xi_3 - 1, 6) - 135*std::pow(xi_3 - 1, 5)*(4*xi_2 + 2*xi_3 - 2) - 1215*std::pow(xi_3 - 1, 4)*std::pow(2*xi_2 + xi_3 - 1, 2) + 1260*std::pow(xi_3 - 1, 3)*std::pow(2*xi_2 + xi_3 - 1, 3) + 2475*std::pow(xi_3 - 1, 2)*std::pow(2*xi_2 + xi_3 - 1, 4) - 2574*(xi_3 - 1)*std::pow(2*xi_2 + xi_3 - 1, 5) + 198*(2*xi_3 - 2)*std::pow(2*xi_2 + xi_3 - 1, 5) - 429*std::pow(2*xi_2 + xi_3 - 1, 6))/(64*xi_3 - 64) + 64*(476*xi_3 + 153*std::pow(2*xi_3 - 1, 2) - 149)*(60*xi_2*std::pow(xi_3 - 1, 6) + 35*std::pow(xi_3 - 1, 7) - 135*std::pow(xi_3 - 1, 5)*std::pow(2*xi_2 + xi_3 - 1, 2) - 180*std::pow(xi_3 - 1, 4)*std::pow(2*xi_2 + xi_3 - 1, 3) + 495*std::pow(xi_3 - 1, 3)*std::pow(2*xi_2 + xi_3 - 1, 4) + 198*std::pow(xi_3 - 1, 2)*std::pow(2*xi_2 + xi_3 - 1, 5) - 429*(xi_3 - 1)*std::pow(2*xi_2 + xi_3 - 1, 6))/std::pow(64*xi_3 - 64, 2);
  127 => -(18*xi_3 - 1)*(4410*xi_2*std::pow(xi_3 - 1, 6) + 2240*std::pow(xi_3 - 1, 7) + 945*std::pow(xi_3 - 1, 6)*(4*xi_2 + 2*xi_3 - 2) - 4725*std::pow(xi_3 - 1, 5)*std::pow(2*xi_2 + xi_3 - 1, 2) - 31185*std::pow(xi_3 - 1, 4)*std::pow(2*xi_2 + xi_3 - 1, 3) + 31185*std::pow(xi_3 - 1, 3)*std::pow(2*xi_2 + xi_3 - 1, 4) + 45045*std::pow(xi_3 - 1, 2)*std::pow(2*xi_2 + xi_3 - 1, 5) - 45045*(xi_3 - 1)*std::pow(2*xi_2 + xi_3 - 1, 6) + 3003*(2*xi_3 - 2)*std::pow(2*xi_2 + xi_3 - 1, 6) - 6435*std::pow(2*xi_2 + xi_3 - 1, 7))/(128*xi_3 - 128) + 128*(18*xi_3 - 1)*(630*xi_2*std::pow(xi_3 - 1, 7) + 280*std::pow(xi_3 - 1, 8) + 945*std::pow(xi_3 - 1, 6)*std::pow(2*xi_2 + xi_3 - 1, 2) - 3465*std::pow(xi_3 - 1, 5)*std::pow(2*xi_2 + xi_3 - 1, 3) - 3465*std::pow(xi_3 - 1, 4)*std::pow(2*xi_2 + xi_3 - 1, 4) + 9009*std::pow(xi_3 - 1, 3)*std::pow(2*xi_2 + xi_3 - 1, 5) + 3003*std::pow(xi_3 - 1, 2)*std::pow(2*xi_2 + xi_3 - 1, 6) - 6435*(xi_3 - 1)*std::pow(2*xi_2 + xi_3 - 1, 7))/std::pow(128*xi_3 - 128, 2) - 18*(630*xi_2*std::pow(xi_3 - 1, 7) + 280*std::pow(xi_3 - 1, 8) + 945*std::pow(xi_3 - 1, 6)*std::pow(2*xi_2 + xi_3 - 1, 2) - 3465*std::pow(xi_3 - 1, 5)*std::pow(2*xi_2 + xi_3 - 1, 3) - 3465*std::pow(xi_3 - 1, 4)*std::pow(2*xi_2 + xi_3 - 1, 4) + 9009*std::pow(xi_3 - 1, 3)*std::pow(2*xi_2 + xi_3 - 1, 5) + 3003*std::pow(xi_3 - 1, 2)*std::pow(2*xi_2 + xi_3 - 1, 6) - 6435*(xi_3 - 1)*std::pow(2*xi_2 + xi_3 - 1, 7))/(128*xi_3 - 128);
  128 => (245/8)*xi_2*std::pow(xi_3 - 1, 6) + (385/32)*(-xi_3 + 1)*std::pow(xi_3 - 1, 5)*(4*xi_2 + 2*xi_3 - 2) + (4235/32)*(-xi_3 + 1)*std::pow(xi_3 - 1, 4)*std::pow(2*xi_2 + xi_3 - 1, 2) + (385/4)*(-xi_3 + 1)*std::pow(xi_3 - 1, 3)*std::pow(2*xi_2 + xi_3 - 1, 3) + (15015/16)*(-xi_3 + 1)*(xi_3 - 1)*std::pow(2*xi_2 + xi_3 - 1, 5) + (15015/32)*(-xi_3 + 1)*std::pow(2*xi_2 + xi_3 - 1, 6) + (315/16)*std::pow(xi_3 - 1, 7) - 385/32*std::pow(xi_3 - 1, 5)*std::pow(2*xi_2 + xi_3 - 1, 2) + (1155/4)*std::pow(xi_3 - 1, 4)*std::pow(2*xi_2 + xi_3 - 1, 3) + (5005/8)*std::pow(xi_3 - 1, 3)*std::pow(2*xi_2 + xi_3 - 1, 4) + (3003/16)*std::pow(xi_3 - 1, 2)*std::pow(2*xi_2 + xi_3 - 1, 5) - 5005/32*(xi_3 - 1)*std::pow(2*xi_2 + xi_3 - 1, 6) + 715*std::pow(2*xi_2 + xi_3 - 1, 7);
  129 => (63/4)*xi_3 + (1989/8)*std::pow(2*xi_3 - 1, 7) + (1547/4)*std::pow(2*xi_3 - 1, 6) - 273/8*std::pow(2*xi_3 - 1, 5) - 4095/16*std::pow(2*xi_3 - 1, 4) - 455/8*std::pow(2*xi_3 - 1, 3) + (273/8)*std::pow(2*xi_3 - 1, 2) + (1/16)*(2*xi_1 + xi_2 + xi_3 - 1)*(4368*xi_3 + 55692*std::pow(2*xi_3 - 1, 6) + 74256*std::pow(2*xi_3 - 1, 5) - 5460*std::pow(2*xi_3 - 1, 4) - 32760*std::pow(2*xi_3 - 1, 3) - 5460*std::pow(2*xi_3 - 1, 2) - 1932) - 133/16;
  130 => (1/16)*(5*xi_2 + xi_3 - 1)*(2*xi_1 + xi_2 + xi_3 - 1)*(-10920*xi_3 + 55692*std::pow(2*xi_3 - 1, 5) + 92820*std::pow(2*xi_3 - 1, 4) + 32760*std::pow(2*xi_3 - 1, 3) - 10920*std::pow(2*xi_3 - 1, 2) + 5304) + (1/16)*(5*xi_2 + xi_3 - 1)*(-156*xi_3 + 4641*std::pow(2*xi_3 - 1, 6) + 9282*std::pow(2*xi_3 - 1, 5) + 4095*std::pow(2*xi_3 - 1, 4) - 1820*std::pow(2*xi_3 - 1, 3) - 1365*std::pow(2*xi_3 - 1, 2) + 107) + (1/16)*(2*xi_1 + xi_2 + xi_3 - 1)*(-156*xi_3 + 4641*std::pow(2*xi_3 - 1, 6) + 9282*std::pow(2*xi_3 - 1, 5) + 4095*std::pow(2*xi_3 - 1, 4) - 1820*std::pow(2*xi_3 - 1, 3) - 1365*std::pow(2*xi_3 - 1, 2) + 107);
  131 => -(36*xi_2*std::pow(xi_3 - 1, 2) + 17*std::pow(xi_3 - 1, 3) - 21*(xi_3 - 1)*std::pow(2*xi_2 + xi_3 - 1, 2))*(2*xi_1 + xi_2 + xi_3 - 1)*(1680*xi_3 + 10710*std::pow(2*xi_3 - 1, 4) + 19040*std::pow(2*xi_3 - 1, 3) + 9660*std::pow(2*xi_3 - 1, 2) - 1050)/(16*xi_3 - 16) - (36*xi_2*std::pow(xi_3 - 1, 2) + 17*std::pow(xi_3 - 1, 3) - 21*(xi_3 - 1)*std::pow(2*xi_2 + xi_3 - 1, 2))*(-210*xi_3 + 1071*std::pow(2*xi_3 - 1, 5) + 2380*std::pow(2*xi_3 - 1, 4) + 1610*std::pow(2*xi_3 - 1, 3) + 210*std::pow(2*xi_3 - 1, 2) + 87)/(16*xi_3 - 16) - (2*xi_1 + xi_2 + xi_3 - 1)*(36*xi_2*(2*xi_3 - 2) + 51*std::pow(xi_3 - 1, 2) - 21*(xi_3 - 1)*(4*xi_2 + 2*xi_3 - 2) - 21*std::pow(2*xi_2 + xi_3 - 1, 2))*(-210*xi_3 + 1071*std::pow(2*xi_3 - 1, 5) + 2380*std::pow(2*xi_3 - 1, 4) + 1610*std::pow(2*xi_3 - 1, 3) + 210*std::pow(2*xi_3 - 1, 2) + 87)/(16*xi_3 - 16) + 16*(36*xi_2*std::pow(xi_3 - 1, 2) + 17*std::pow(xi_3 - 1, 3) - 21*(xi_3 - 1)*std::pow(2*xi_2 + xi_3 - 1, 2))*(2*xi_1 + xi_2 + xi_3 - 1)*(-210*xi_3 + 1071*std::pow(2*xi_3 - 1, 5) + 2380*std::pow(2*xi_3 - 1, 4) + 1610*std::pow(2*xi_3 - 1, 3) + 210*std::pow(2*xi_3 - 1, 2) + 87)/std::pow(16*xi_3 - 16, 2);
  132 => (1/8)*(6*std::pow(xi_3 - 1, 2) - 21*(xi_3 - 1)*(4*xi_2 + 2*xi_3 - 2) + 42*std::pow(2*xi_2 + xi_3 - 1, 2))*(2*xi_1 + xi_2 + xi_3 - 1)*(600*xi_3 + 765*std::pow(2*xi_3 - 1, 4) + 1700*std::pow(2*xi_3 - 1, 3) + 1230*std::pow(2*xi_3 - 1, 2) - 291) + (1/8)*(2*std::pow(xi_3 - 1, 3) - 21*(xi_3 - 1)*std::pow(2*xi_2 + xi_3 - 1, 2) + 21*std::pow(2*xi_2 + xi_3 - 1, 3))*(2*xi_1 + xi_2 + xi_3 - 1)*(9840*xi_3 + 6120*std::pow(2*xi_3 - 1, 3) + 10200*std::pow(2*xi_3 - 1, 2) - 4320) + (1/8)*(2*std::pow(xi_3 - 1, 3) - 21*(xi_3 - 1)*std::pow(2*xi_2 + xi_3 - 1, 2) + 21*std::pow(2*xi_2 + xi_3 - 1, 3))*(600*xi_3 + 765*std::pow(2*xi_3 - 1, 4) + 1700*std::pow(2*xi_3 - 1, 3) + 1230*std::pow(2*xi_3 - 1, 2) - 291);
  133 => (1/8)*(1632*xi_3 + 612*std::pow(2*xi_3 - 1, 2) - 564)*(2*xi_1 + xi_2 + xi_3 - 1)*(88*xi_2*std::pow(xi_3 - 1, 3) + 41*std::pow(xi_3 - 1, 4) - 18*std::pow(xi_3 - 1, 2)*std::pow(2*xi_2 + xi_3 - 1, 2) - 180*(xi_3 - 1)*std::pow(2*xi_2 + xi_3 - 1, 3) + 165*std::pow(2*xi_2 + xi_3 - 1, 4)) + (1/8)*(2*xi_1 + xi_2 + xi_3 - 1)*(252*xi_3 + 102*std::pow(2*xi_3 - 1, 3) + 204*std::pow(2*xi_3 - 1, 2) - 103)*(264*xi_2*std::pow(xi_3 - 1, 2) + 164*std::pow(xi_3 - 1, 3) - 18*std::pow(xi_3 - 1, 2)*(4*xi_2 + 2*xi_3 - 2) - 540*(xi_3 - 1)*std::pow(2*xi_2 + xi_3 - 1, 2) - 18*(2*xi_3 - 2)*std::pow(2*xi_2 + xi_3 - 1, 2) + 480*std::pow(2*xi_2 + xi_3 - 1, 3)) + (1/8)*(252*xi_3 + 102*std::pow(2*xi_3 - 1, 3) + 204*std::pow(2*xi_3 - 1, 2) - 103)*(88*xi_2*std::pow(xi_3 - 1, 3) + 41*std::pow(xi_3 - 1, 4) - 18*std::pow(xi_3 - 1, 2)*std::pow(2*xi_2 + xi_3 - 1, 2) - 180*(xi_3 - 1)*std::pow(2*xi_2 + xi_3 - 1, 3) + 165*std::pow(2*xi_2 + xi_3 - 1, 4));
  134 => (1/128)*(1224*xi_3 - 136)*(2*xi_1 + xi_2 + xi_3 - 1)*(-90*xi_2*std::pow(xi_3 - 1, 5) - 70*std::pow(-xi_3 + 1, 6) - 1485*std::pow(-xi_3 + 1, 2)*std::pow(-2*xi_2 - xi_3 + 1, 4) + 1287*(-xi_3 + 1)*std::pow(-2*xi_2 - xi_3 + 1, 5) + 630*std::pow(xi_3 - 1, 4)*std::pow(-2*xi_2 - xi_3 + 1, 2) + 330*std::pow(xi_3 - 1, 3)*std::pow(-2*xi_2 - xi_3 + 1, 3))/(xi_3 - 1) + (1/128)*(476*xi_3 + 153*std::pow(2*xi_3 - 1, 2) - 149)*(2*xi_1 + xi_2 + xi_3 - 1)*(-450*xi_2*std::pow(xi_3 - 1, 4) + 420*std::pow(-xi_3 + 1, 5) + 5940*std::pow(-xi_3 + 1, 2)*std::pow(-2*xi_2 - xi_3 + 1, 3) - 6435*(-xi_3 + 1)*std::pow(-2*xi_2 - xi_3 + 1, 4) + 630*std::pow(xi_3 - 1, 4)*(4*xi_2 + 2*xi_3 - 2) + 1530*std::pow(xi_3 - 1, 3)*std::pow(-2*xi_2 - xi_3 + 1, 2) + 990*std::pow(xi_3 - 1, 2)*std::pow(-2*xi_2 - xi_3 + 1, 3) - 1485*(2*xi_3 - 2)*std::pow(-2*xi_2 - xi_3 + 1, 4) - 1287*std::pow(-2*xi_2 - xi_3 + 1, 5))/(xi_3 - 1) + (1/128)*(476*xi_3 + 153*std::pow(2*xi_3 - 1, 2) - 149)*(-90*xi_2*std::pow(xi_3 - 1, 5) - 70*std::pow(-xi_3 + 1, 6) - 1485*std::pow(-xi_3 + 1, 2)*std::pow(-2*xi_2 - xi_3 + 1, 4) + 1287*(-xi_3 + 1)*std::pow(-2*xi_2 - xi_3 + 1, 5) + 630*std::pow(xi_3 - 1, 4)*std::pow(-2*xi_2 - xi_3 + 1, 2) + 330*std::pow(xi_3 - 1, 3)*std::pow(-2*xi_2 - xi_3 + 1, 3))/(xi_3 - 1) - 1/128*(476*xi_3 + 153*std::pow(2*xi_3 - 1, 2) - 149)*(2*xi_1 + xi_2 + xi_3 - 1)*(-90*xi_2*std::pow(xi_3 - 1, 5) - 70*std::pow(-xi_3 + 1, 6) - 1485*std::pow(-xi_3 + 1, 2)*std::pow(-2*xi_2 - xi_3 + 1, 4) + 1287*(-xi_3 + 1)*std::pow(-2*xi_2 - xi_3 + 1, 5) + 630*std::pow(xi_3 - 1, 4)*std::pow(-2*xi_2 - xi_3 + 1, 2) + 330*std::pow(xi_3 - 1, 3)*std::pow(-2*xi_2 - xi_3 + 1, 3))/std::pow(xi_3 - 1, 2);
  135 => -(18*xi_3 - 1)*(2*xi_1 + xi_2 + xi_3 - 1)*(4680*xi_2*std::pow(xi_3 - 1, 5) + 2555*std::pow(xi_3 - 1, 6) + 165*std::pow(xi_3 - 1, 5)*(4*xi_2 + 2*xi_3 - 2) - 10395*std::pow(xi_3 - 1, 4)*std::pow(2*xi_2 + xi_3 - 1, 2) - 6380*std::pow(xi_3 - 1, 3)*std::pow(2*xi_2 + xi_3 - 1, 3) + 36465*std::pow(xi_3 - 1, 2)*std::pow(2*xi_2 + xi_3 - 1, 4) - 30030*(xi_3 - 1)*std::pow(2*xi_2 + xi_3 - 1, 5) + 6006*(2*xi_3 - 2)*std::pow(2*xi_2 + xi_3 - 1, 5) - 5005*std::pow(2*xi_2 + xi_3 - 1, 6))/(64*xi_3 - 64) - (18*xi_3 - 1)*(780*xi_2*std::pow(xi_3 - 1, 6) + 365*std::pow(xi_3 - 1, 7) + 165*std::pow(xi_3 - 1, 5)*std::pow(2*xi_2 + xi_3 - 1, 2) - 3740*std::pow(xi_3 - 1, 4)*std::pow(2*xi_2 + xi_3 - 1, 3) + 2145*std::pow(xi_3 - 1, 3)*std::pow(2*xi_2 + xi_3 - 1, 4) + 6006*std::pow(xi_3 - 1, 2)*std::pow(2*xi_2 + xi_3 - 1, 5) - 5005*(xi_3 - 1)*std::pow(2*xi_2 + xi_3 - 1, 6))/(64*xi_3 - 64) + 64*(18*xi_3 - 1)*(2*xi_1 + xi_2 + xi_3 - 1)*(780*xi_2*std::pow(xi_3 - 1, 6) + 365*std::pow(xi_3 - 1, 7) + 165*std::pow(xi_3 - 1, 5)*std::pow(2*xi_2 + xi_3 - 1, 2) - 3740*std::pow(xi_3 - 1, 4)*std::pow(2*xi_2 + xi_3 - 1, 3) + 2145*std::pow(xi_3 - 1, 3)*std::pow(2*xi_2 + xi_3 - 1, 4) + 6006*std::pow(xi_3 - 1, 2)*std::pow(2*xi_2 + xi_3 - 1, 5) - 5005*(xi_3 - 1)*std::pow(2*xi_2 + xi_3 - 1, 6))/std::pow(64*xi_3 - 64, 2) - 18*(2*xi_1 + xi_2 + xi_3 - 1)*(780*xi_2*std::pow(xi_3 - 1, 6) + 365*std::pow(xi_3 - 1, 7) + 165*std::pow(xi_3 - 1, 5)*std::pow(2*xi_2 + xi_3 - 1, 2) - 3740*std::pow(xi_3 - 1, 4)*std::pow(2*xi_2 + xi_3 - 1, 3) + 2145*std::pow(xi_3 - 1, 3)*std::pow(2*xi_2 + xi_3 - 1, 4) + 6006*std::pow(xi_3 - 1, 2)*std::pow(2*xi_2 + xi_3 - 1, 5) - 5005*(xi_3 - 1)*std::pow(2*xi_2 + xi_3 - 1, 6))/(64*xi_3 - 64);
  136 => (1/32)*(2*xi_1 + xi_2 + xi_3 - 1)*(1078*xi_2*std::pow(xi_3 - 1, 6) - 924*std::pow(-xi_3 + 1, 6)*(4*xi_2 + 2*xi_3 - 2) + 5544*std::pow(-xi_3 + 1, 5)*std::pow(-2*xi_2 - xi_3 + 1, 2) + 36036*std::pow(-xi_3 + 1, 2)*std::pow(-2*xi_2 - xi_3 + 1, 5) - 34034*(-xi_3 + 1)*std::pow(-2*xi_2 - xi_3 + 1, 6) + 784*std::pow(xi_3 - 1, 7) - 20020*std::pow(xi_3 - 1, 4)*std::pow(-2*xi_2 - xi_3 + 1, 3) + 5005*std::pow(xi_3 - 1, 3)*std::pow(-2*xi_2 - xi_3 + 1, 4) + 9009*std::pow(xi_3 - 1, 2)*std::pow(-2*xi_2 - xi_3 + 1, 5) - 6006*(2*xi_3 - 2)*std::pow(-2*xi_2 - xi_3 + 1, 6) - 4862*std::pow(-2*xi_2 - xi_3 + 1, 7))/(xi_3 - 1) + (1/32)*(154*xi_2*std::pow(xi_3 - 1, 7) - 924*std::pow(-xi_3 + 1, 6)*std::pow(-2*xi_2 - xi_3 + 1, 2) - 6006*std::pow(-xi_3 + 1, 2)*std::pow(-2*xi_2 - xi_3 + 1, 6) + 4862*(-xi_3 + 1)*std::pow(-2*xi_2 - xi_3 + 1, 7) + 98*std::pow(xi_3 - 1, 8) + 5005*std::pow(xi_3 - 1, 4)*std::pow(-2*xi_2 - xi_3 + 1, 4) + 3003*std::pow(xi_3 - 1, 3)*std::pow(-2*xi_2 - xi_3 + 1, 5))/(xi_3 - 1) - 1/32*(2*xi_1 + xi_2 + xi_3 - 1)*(154*xi_2*std::pow(xi_3 - 1, 7) - 924*std::pow(-xi_3 + 1, 6)*std::pow(-2*xi_2 - xi_3 + 1, 2) - 6006*std::pow(-xi_3 + 1, 2)*std::pow(-2*xi_2 - xi_3 + 1, 6) + 4862*(-xi_3 + 1)*std::pow(-2*xi_2 - xi_3 + 1, 7) + 98*std::pow(xi_3 - 1, 8) + 5005*std::pow(xi_3 - 1, 4)*std::pow(-2*xi_2 - xi_3 + 1, 4) + 3003*std::pow(xi_3 - 1, 3)*std::pow(-2*xi_2 - xi_3 + 1, 5))/std::pow(xi_3 - 1, 2);
  137 => (1/32)*(-std::pow(xi_2 + xi_3 - 1, 2) + 3*std::pow(2*xi_1 + xi_2 + xi_3 - 1, 2))*(-10920*xi_3 + 55692*std::pow(2*xi_3 - 1, 5) + 92820*std::pow(2*xi_3 - 1, 4) + 32760*std::pow(2*xi_3 - 1, 3) - 10920*std::pow(2*xi_3 - 1, 2) + 5304) + (1/32)*(12*xi_1 + 4*xi_2 + 4*xi_3 - 4)*(-156*xi_3 + 4641*std::pow(2*xi_3 - 1, 6) + 9282*std::pow(2*xi_3 - 1, 5) + 4095*std::pow(2*xi_3 - 1, 4) - 1820*std::pow(2*xi_3 - 1, 3) - 1365*std::pow(2*xi_3 - 1, 2) + 107);
  138 => (1/8)*(-std::pow(xi_2 + xi_3 - 1, 2) + 3*std::pow(2*xi_1 + xi_2 + xi_3 - 1, 2))*(7*xi_2 + xi_3 - 1)*(1680*xi_3 + 10710*std::pow(2*xi_3 - 1, 4) + 19040*std::pow(2*xi_3 - 1, 3) + 9660*std::pow(2*xi_3 - 1, 2) - 1050) + (1/8)*(-std::pow(xi_2 + xi_3 - 1, 2) + 3*std::pow(2*xi_1 + xi_2 + xi_3 - 1, 2))*(-210*xi_3 + 1071*std::pow(2*xi_3 - 1, 5) + 2380*std::pow(2*xi_3 - 1, 4) + 1610*std::pow(2*xi_3 - 1, 3) + 210*std::pow(2*xi_3 - 1, 2) + 87) + (1/8)*(7*xi_2 + xi_3 - 1)*(12*xi_1 + 4*xi_2 + 4*xi_3 - 4)*(-210*xi_3 + 1071*std::pow(2*xi_3 - 1, 5) + 2380*std::pow(2*xi_3 - 1, 4) + 1610*std::pow(2*xi_3 - 1, 3) + 210*std::pow(2*xi_3 - 1, 2) + 87);
  139 => (std::pow(xi_2 + xi_3 - 1, 2) - 3*std::pow(2*xi_1 + xi_2 + xi_3 - 1, 2))*(20*xi_2*std::pow(xi_3 - 1, 2) + 8*std::pow(xi_3 - 1, 3) - 9*(xi_3 - 1)*std::pow(2*xi_2 + xi_3 - 1, 2))*(9840*xi_3 + 6120*std::pow(2*xi_3 - 1, 3) + 10200*std::pow(2*xi_3 - 1, 2) - 4320)/(8*xi_3 - 8) + (std::pow(xi_2 + xi_3 - 1, 2) - 3*std::pow(2*xi_1 + xi_2 + xi_3 - 1, 2))*(20*xi_2*(2*xi_3 - 2) + 24*std::pow(xi_3 - 1, 2) - 9*(xi_3 - 1)*(4*xi_2 + 2*xi_3 - 2) - 9*std::pow(2*xi_2 + xi_3 - 1, 2))*(600*xi_3 + 765*std::pow(2*xi_3 - 1, 4) + 1700*std::pow(2*xi_3 - 1, 3) + 1230*std::pow(2*xi_3 - 1, 2) - 291)/(8*xi_3 - 8) + (20*xi_2*std::pow(xi_3 - 1, 2) + 8*std::pow(xi_3 - 1, 3) - 9*(xi_3 - 1)*std::pow(2*xi_2 + xi_3 - 1, 2))*(-12*xi_1 - 4*xi_2 - 4*xi_3 + 4)*(600*xi_3 + 765*std::pow(2*xi_3 - 1, 4) + 1700*std::pow(2*xi_3 - 1, 3) + 1230*std::pow(2*xi_3 - 1, 2) - 291)/(8*xi_3 - 8) - 8*(std::pow(xi_2 + xi_3 - 1, 2) - 3*std::pow(2*xi_1 + xi_2 + xi_3 - 1, 2))*(20*xi_2*std::pow(xi_3 - 1, 2) + 8*std::pow(xi_3 - 1, 3) - 9*(xi_3 - 1)*std::pow(2*xi_2 + xi_3 - 1, 2))*(600*xi_3 + 765*std::pow(2*xi_3 - 1, 4) + 1700*std::pow(2*xi_3 - 1, 3) + 1230*std::pow(2*xi_3 - 1, 2) - 291)/std::pow(8*xi_3 - 8, 2);
  140 => (1/16)*(-std::pow(xi_2 + xi_3 - 1, 2) + 3*std::pow(2*xi_1 + xi_2 + xi_3 - 1, 2))*(1632*xi_3 + 612*std::pow(2*xi_3 - 1, 2) - 564)*(126*xi_2*std::pow(xi_3 - 1, 3) - 225*std::pow(-xi_3 + 1, 2)*std::pow(-2*xi_2 - xi_3 + 1, 2) + 165*(-xi_3 + 1)*std::pow(-2*xi_2 - xi_3 + 1, 3) + 68*std::pow(xi_3 - 1, 4))/(xi_3 - 1) + (1/16)*(-std::pow(xi_2 + xi_3 - 1, 2) + 3*std::pow(2*xi_1 + xi_2 + xi_3 - 1, 2))*(252*xi_3 + 102*std::pow(2*xi_3 - 1, 3) + 204*std::pow(2*xi_3 - 1, 2) - 103)*(378*xi_2*std::pow(xi_3 - 1, 2) - 225*std::pow(-xi_3 + 1, 2)*(4*xi_2 + 2*xi_3 - 2) - 495*(-xi_3 + 1)*std::pow(-2*xi_2 - xi_3 + 1, 2) + 272*std::pow(xi_3 - 1, 3) - 225*(2*xi_3 - 2)*std::pow(-2*xi_2 - xi_3 + 1, 2) - 165*std::pow(-2*xi_2 - xi_3 + 1, 3))/(xi_3 - 1) + (1/16)*(12*xi_1 + 4*xi_2 + 4*xi_3 - 4)*(252*xi_3 + 102*std::pow(2*xi_3 - 1, 3) + 204*std::pow(2*xi_3 - 1, 2) - 103)*(126*xi_2*std::pow(xi_3 - 1, 3) - 225*std::pow(-xi_3 + 1, 2)*std::pow(-2*xi_2 - xi_3 + 1, 2) + 165*(-xi_3 + 1)*std::pow(-2*xi_2 - xi_3 + 1, 3) + 68*std::pow(xi_3 - 1, 4))/(xi_3 - 1) - 1/16*(-std::pow(xi_2 + xi_3 - 1, 2) + 3*std::pow(2*xi_1 + xi_2 + xi_3 - 1, 2))*(252*xi_3 + 102*std::pow(2*xi_3 - 1, 3) + 204*std::pow(2*xi_3 - 1, 2) - 103)*(126*xi_2*std::pow(xi_3 - 1, 3) - 225*std::pow(-xi_3 + 1, 2)*std::pow(-2*xi_2 - xi_3 + 1, 2) + 165*(-xi_3 + 1)*std::pow(-2*xi_2 - xi_3 + 1, 3) + 68*std::pow(xi_3 - 1, 4))/std::pow(xi_3 - 1, 2);
  141 => (1/128)*(1224*xi_3 - 136)*(-std::pow(xi_2 + xi_3 - 1, 2) + 3*std::pow(2*xi_1 + xi_2 + xi_3 - 1, 2))*(200*xi_2*std::pow(xi_3 - 1, 3) + 71*std::pow(xi_3 - 1, 4) + 330*std::pow(xi_3 - 1, 2)*std::pow(2*xi_2 + xi_3 - 1, 2) - 1100*(xi_3 - 1)*std::pow(2*xi_2 + xi_3 - 1, 3) + 715*std::pow(2*xi_2 + xi_3 - 1, 4)) + (1/128)*(-std::pow(xi_2 + xi_3 - 1, 2) + 3*std::pow(2*xi_1 + xi_2 + xi_3 - 1, 2))*(476*xi_3 + 153*std::pow(2*xi_3 - 1, 2) - 149)*(600*xi_2*std::pow(xi_3 - 1, 2) + 284*std::pow(xi_3 - 1, 3) + 330*std::pow(xi_3 - 1, 2)*(4*xi_2 + 2*xi_3 - 2) - 3300*(xi_3 - 1)*std::pow(2*xi_2 + xi_3 - 1, 2) + 330*(2*xi_3 - 2)*std::pow(2*xi_2 + xi_3 - 1, 2) + 1760*std::pow(2*xi_2 + xi_3 - 1, 3)) + (1/128)*(476*xi_3 + 153*std::pow(2*xi_3 - 1, 2) - 149)*(12*xi_1 + 4*xi_2 + 4*xi_3 - 4)*(200*xi_2*std::pow(xi_3 - 1, 3) + 71*std::pow(xi_3 - 1, 4) + 330*std::pow(xi_3 - 1, 2)*std::pow(2*xi_2 + xi_3 - 1, 2) - 1100*(xi_3 - 1)*std::pow(2*xi_2 + xi_3 - 1, 3) + 715*std::pow(2*xi_2 + xi_3 - 1, 4));
  142 => (18*xi_3 - 1)*(std::pow(xi_2 + xi_3 - 1, 2) - 3*std::pow(2*xi_1 + xi_2 + xi_3 - 1, 2))*(3850*xi_2*std::pow(xi_3 - 1, 4) + 2316*std::pow(xi_3 - 1, 5) - 990*std::pow(xi_3 - 1, 4)*(4*xi_2 + 2*xi_3 - 2) - 8250*std::pow(xi_3 - 1, 3)*std::pow(2*xi_2 + xi_3 - 1, 2) + 15730*std::pow(xi_3 - 1, 2)*std::pow(2*xi_2 + xi_3 - 1, 3) - 15015*(xi_3 - 1)*std::pow(2*xi_2 + xi_3 - 1, 4) + 5005*(2*xi_3 - 2)*std::pow(2*xi_2 + xi_3 - 1, 4) - 3003*std::pow(2*xi_2 + xi_3 - 1, 5))/(64*xi_3 - 64) + (18*xi_3 - 1)*(-12*xi_1 - 4*xi_2 - 4*xi_3 + 4)*(770*xi_2*std::pow(xi_3 - 1, 5) + 386*std::pow(xi_3 - 1, 6) - 990*std::pow(xi_3 - 1, 4)*std::pow(2*xi_2 + xi_3 - 1, 2) - 1430*std::pow(xi_3 - 1, 3)*std::pow(2*xi_2 + xi_3 - 1, 3) + 5005*std::pow(xi_3 - 1, 2)*std::pow(2*xi_2 + xi_3 - 1, 4) - 3003*(xi_3 - 1)*std::pow(2*xi_2 + xi_3 - 1, 5))/(64*xi_3 - 64) - 64*(18*xi_3 - 1)*(std::pow(xi_2 + xi_3 - 1, 2) - 3*std::pow(2*xi_1 + xi_2 + xi_3 - 1, 2))*(770*xi_2*std::pow(xi_3 - 1, 5) + 386*std::pow(xi_3 - 1, 6) - 990*std::pow(xi_3 - 1, 4)*std::pow(2*xi_2 + xi_3 - 1, 2) - 1430*std::pow(xi_3 - 1, 3)*std::pow(2*xi_2 + xi_3 - 1, 3) + 5005*std::pow(xi_3 - 1, 2)*std::pow(2*xi_2 + xi_3 - 1, 4) - 3003*(xi_3 - 1)*std::pow(2*xi_2 + xi_3 - 1, 5))/std::pow(64*xi_3 - 64, 2) + 18*(std::pow(xi_2 + xi_3 - 1, 2) - 3*std::pow(2*xi_1 + xi_2 + xi_3 - 1, 2))*(770*xi_2*std::pow(xi_3 - 1, 5) + 386*std::pow(xi_3 - 1, 6) - 990*std::pow(xi_3 - 1, 4)*std::pow(2*xi_2 + xi_3 - 1, 2) - 1430*std::pow(xi_3 - 1, 3)*std::pow(2*xi_2 + xi_3 - 1, 3) + 5005*std::pow(xi_3 - 1, 2)*std::pow(2*xi_2 + xi_3 - 1, 4) - 3003*(xi_3 - 1)*std::pow(2*xi_2 + xi_3 - 1, 5))/(64*xi_3 - 64);
  143 => (1/32)*(std::pow(xi_2 + xi_3 - 1, 2) - 3*std::pow(2*xi_1 + xi_2 + xi_3 - 1, 2))*(480*xi_2*std::pow(xi_3 - 1, 4) + 138*std::pow(xi_3 - 1, 5) + 780*std::pow(xi_3 - 1, 4)*(4*xi_2 + 2*xi_3 - 2) - 2340*std::pow(xi_3 - 1, 3)*std::pow(2*xi_2 + xi_3 - 1, 2) - 10920*std::pow(xi_3 - 1, 2)*std::pow(2*xi_2 + xi_3 - 1, 3) + 27300*(xi_3 - 1)*std::pow(2*xi_2 + xi_3 - 1, 4) - 1365*(2*xi_3 - 2)*std::pow(2*xi_2 + xi_3 - 1, 4) - 13104*std::pow(2*xi_2 + xi_3 - 1, 5)) + (1/32)*(-12*xi_1 - 4*xi_2 - 4*xi_3 + 4)*(96*xi_2*std::pow(xi_3 - 1, 5) + 23*std::pow(xi_3 - 1, 6) + 780*std::pow(xi_3 - 1, 4)*std::pow(2*xi_2 + xi_3 - 1, 2) - 1820*std::pow(xi_3 - 1, 3)*std::pow(2*xi_2 + xi_3 - 1, 3) - 1365*std::pow(xi_3 - 1, 2)*std::pow(2*xi_2 + xi_3 - 1, 4) + 5460*(xi_3 - 1)*std::pow(2*xi_2 + xi_3 - 1, 5) - 3094*std::pow(2*xi_2 + xi_3 - 1, 6));
  144 => -(6*xi_1*std::pow(xi_2 + xi_3 - 1, 3) + 3*std::pow(xi_2 + xi_3 - 1, 4) - 5*(xi_2 + xi_3 - 1)*std::pow(2*xi_1 + xi_2 + xi_3 - 1, 3))*(1680*xi_3 + 10710*std::pow(2*xi_3 - 1, 4) + 19040*std::pow(2*xi_3 - 1, 3) + 9660*std::pow(2*xi_3 - 1, 2) - 1050)/(8*xi_2 + 8*xi_3 - 8) - (18*xi_1*std::pow(xi_2 + xi_3 - 1, 2) + 12*std::pow(xi_2 + xi_3 - 1, 3) - 15*(xi_2 + xi_3 - 1)*std::pow(2*xi_1 + xi_2 + xi_3 - 1, 2) - 5*std::pow(2*xi_1 + xi_2 + xi_3 - 1, 3))*(-210*xi_3 + 1071*std::pow(2*xi_3 - 1, 5) + 2380*std::pow(2*xi_3 - 1, 4) + 1610*std::pow(2*xi_3 - 1, 3) + 210*std::pow(2*xi_3 - 1, 2) + 87)/(8*xi_2 + 8*xi_3 - 8) + 8*(6*xi_1*std::pow(xi_2 + xi_3 - 1, 3) + 3*std::pow(xi_2 + xi_3 - 1, 4) - 5*(xi_2 + xi_3 - 1)*std::pow(2*xi_1 + xi_2 + xi_3 - 1, 3))*(-210*xi_3 + 1071*std::pow(2*xi_3 - 1, 5) + 2380*std::pow(2*xi_3 - 1, 4) + 1610*std::pow(2*xi_3 - 1, 3) + 210*std::pow(2*xi_3 - 1, 2) + 87)/std::pow(8*xi_2 + 8*xi_3 - 8, 2);
  145 => (1/8)*(9*xi_2 + xi_3 - 1)*(6*xi_1*std::pow(xi_2 + xi_3 - 1, 3) + 5*(-xi_2 - xi_3 + 1)*std::pow(2*xi_1 + xi_2 + xi_3 - 1, 3) + 3*std::pow(xi_2 + xi_3 - 1, 4))*(9840*xi_3 + 6120*std::pow(2*xi_3 - 1, 3) + 10200*std::pow(2*xi_3 - 1, 2) - 4320)/(-xi_2 - xi_3 + 1) + (1/8)*(9*xi_2 + xi_3 - 1)*(18*xi_1*std::pow(xi_2 + xi_3 - 1, 2) + 15*(-xi_2 - xi_3 + 1)*std::pow(2*xi_1 + xi_2 + xi_3 - 1, 2) + 12*std::pow(xi_2 + xi_3 - 1, 3) - 5*std::pow(2*xi_1 + xi_2 + xi_3 - 1, 3))*(600*xi_3 + 765*std::pow(2*xi_3 - 1, 4) + 1700*std::pow(2*xi_3 - 1, 3) + 1230*std::pow(2*xi_3 - 1, 2) - 291)/(-xi_2 - xi_3 + 1) + (1/8)*(6*xi_1*std::pow(xi_2 + xi_3 - 1, 3) + 5*(-xi_2 - xi_3 + 1)*std::pow(2*xi_1 + xi_2 + xi_3 - 1, 3) + 3*std::pow(xi_2 + xi_3 - 1, 4))*(600*xi_3 + 765*std::pow(2*xi_3 - 1, 4) + 1700*std::pow(2*xi_3 - 1, 3) + 1230*std::pow(2*xi_3 - 1, 2) - 291)/(-xi_2 - xi_3 + 1) + (1/8)*(9*xi_2 + xi_3 - 1)*(6*xi_1*std::pow(xi_2 + xi_3 - 1, 3) + 5*(-xi_2 - xi_3 + 1)*std::pow(2*xi_1 + xi_2 + xi_3 - 1, 3) + 3*std::pow(xi_2 + xi_3 - 1, 4))*(600*xi_3 + 765*std::pow(2*xi_3 - 1, 4) + 1700*std::pow(2*xi_3 - 1, 3) + 1230*std::pow(2*xi_3 - 1, 2) - 291)/std::pow(-xi_2 - xi_3 + 1, 2);
  146 => (1/8)*(1632*xi_3 + 612*std::pow(2*xi_3 - 1, 2) - 564)*(6*xi_1*std::pow(xi_2 + xi_3 - 1, 3) + 5*(-xi_2 - xi_3 + 1)*std::pow(2*xi_1 + xi_2 + xi_3 - 1, 3) + 3*std::pow(xi_2 + xi_3 - 1, 4))*(140*xi_2*std::pow(xi_3 - 1, 2) + 55*(-xi_3 + 1)*std::pow(-2*xi_2 - xi_3 + 1, 2) + 51*std::pow(xi_3 - 1, 3))/((xi_3 - 1)*(xi_2 + xi_3 - 1)) + (1/8)*(6*xi_1*std::pow(xi_2 + xi_3 - 1, 3) + 5*(-xi_2 - xi_3 + 1)*std::pow(2*xi_1 + xi_2 + xi_3 - 1, 3) + 3*std::pow(xi_2 + xi_3 - 1, 4))*(252*xi_3 + 102*std::pow(2*xi_3 - 1, 3) + 204*std::pow(2*xi_3 - 1, 2) - 103)*(140*xi_2*(2*xi_3 - 2) + 55*(-xi_3 + 1)*(4*xi_2 + 2*xi_3 - 2) + 153*std::pow(xi_3 - 1, 2) - 55*std::pow(-2*xi_2 - xi_3 + 1, 2))/((xi_3 - 1)*(xi_2 + xi_3 - 1)) + (1/8)*(140*xi_2*std::pow(xi_3 - 1, 2) + 55*(-xi_3 + 1)*std::pow(-2*xi_2 - xi_3 + 1, 2) + 51*std::pow(xi_3 - 1, 3))*(252*xi_3 + 102*std::pow(2*xi_3 - 1, 3) + 204*std::pow(2*xi_3 - 1, 2) - 103)*(18*xi_1*std::pow(xi_2 + xi_3 - 1, 2) + 15*(-xi_2 - xi_3 + 1)*std::pow(2*xi_1 + xi_2 + xi_3 - 1, 2) + 12*std::pow(xi_2 + xi_3 - 1, 3) - 5*std::pow(2*xi_1 + xi_2 + xi_3 - 1, 3))/((xi_3 - 1)*(xi_2 + xi_3 - 1)) - 1/8*(6*xi_1*std::pow(xi_2 + xi_3 - 1, 3) + 5*(-xi_2 - xi_3 + 1)*std::pow(2*xi_1 + xi_2 + xi_3 - 1, 3) + 3*std::pow(xi_2 + xi_3 - 1, 4))*(140*xi_2*std::pow(xi_3 - 1, 2) + 55*(-xi_3 + 1)*std::pow(-2*xi_2 - xi_3 + 1, 2) + 51*std::pow(xi_3 - 1, 3))*(252*xi_3 + 102*std::pow(2*xi_3 - 1, 3) + 204*std::pow(2*xi_3 - 1, 2) - 103)/((xi_3 - 1)*std::pow(xi_2 + xi_3 - 1, 2)) - 1/8*(6*xi_1*std::pow(xi_2 + xi_3 - 1, 3) + 5*(-xi_2 - xi_3 + 1)*std::pow(2*xi_1 + xi_2 + xi_3 - 1, 3) + 3*std::pow(xi_2 + xi_3 - 1, 4))*(140*xi_2*std::pow(xi_3 - 1, 2) + 55*(-xi_3 + 1)*std::pow(-2*xi_2 - xi_3 + 1, 2) + 51*std::pow(xi_3 - 1, 3))*(252*xi_3 + 102*std::pow(2*xi_3 - 1, 3) + 204*std::pow(2*xi_3 - 1, 2) - 103)/(std::pow(xi_3 - 1, 2)*(xi_2 + xi_3 - 1));
  147 => -(1224*xi_3 - 136)*(6*xi_1*std::pow(xi_2 + xi_3 - 1, 3) + 3*std::pow(xi_2 + xi_3 - 1, 4) - 5*(xi_2 + xi_3 - 1)*std::pow(2*xi_1 + xi_2 + xi_3 - 1, 3))*(198*xi_2*std::pow(xi_3 - 1, 2) + 92*std::pow(xi_3 - 1, 3) - 231*(xi_3 - 1)*std::pow(2*xi_2 + xi_3 - 1, 2) + 143*std::pow(2*xi_2 + xi_3 - 1, 3))/(32*xi_2 + 32*xi_3 - 32) - (476*xi_3 + 153*std::pow(2*xi_3 - 1, 2) - 149)*(6*xi_1*std::pow(xi_2 + xi_3 - 1, 3) + 3*std::pow(xi_2 + xi_3 - 1, 4) - 5*(xi_2 + xi_3 - 1)*std::pow(2*xi_1 + xi_2 + xi_3 - 1, 3))*(198*xi_2*(2*xi_3 - 2) + 276*std::pow(xi_3 - 1, 2) - 231*(xi_3 - 1)*(4*xi_2 + 2*xi_3 - 2) + 198*std::pow(2*xi_2 + xi_3 - 1, 2))/(32*xi_2 + 32*xi_3 - 32) - (476*xi_3 + 153*std::pow(2*xi_3 - 1, 2) - 149)*(18*xi_1*std::pow(xi_2 + xi_3 - 1, 2) + 12*std::pow(xi_2 + xi_3 - 1, 3) - 15*(xi_2 + xi_3 - 1)*std::pow(2*xi_1 + xi_2 + xi_3 - 1, 2) - 5*std::pow(2*xi_1 + xi_2 + xi_3 - 1, 3))*(198*xi_2*std::pow(xi_3 - 1, 2) + 92*std::pow(xi_3 - 1, 3) - 231*(xi_3 - 1)*std::pow(2*xi_2 + xi_3 - 1, 2) + 143*std::pow(2*xi_2 + xi_3 - 1, 3))/(32*xi_2 + 32*xi_3 - 32) + 32*(476*xi_3 + 153*std::pow(2*xi_3 - 1, 2) - 149)*(6*xi_1*std::pow(xi_2 + xi_3 - 1, 3) + 3*std::pow(xi_2 + xi_3 - 1, 4) - 5*(xi_2 + xi_3 - 1)*std::pow(2*xi_1 + xi_2 + xi_3 - 1, 3))*(198*xi_2*std::pow(xi_3 - 1, 2) + 92*std::pow(xi_3 - 1, 3) - 231*(xi_3 - 1)*std::pow(2*xi_2 + xi_3 - 1, 2) + 143*std::pow(2*xi_2 + xi_3 - 1, 3))/std::pow(32*xi_2 + 32*xi_3 - 32, 2);
  148 => (1/32)*(18*xi_3 - 1)*(6*xi_1*std::pow(xi_2 + xi_3 - 1, 3) + 5*(-xi_2 - xi_3 + 1)*std::pow(2*xi_1 + xi_2 + xi_3 - 1, 3) + 3*std::pow(xi_2 + xi_3 - 1, 4))*(-504*xi_2*std::pow(xi_3 - 1, 2) - 508*std::pow(xi_3 - 1, 3) + 1326*std::pow(xi_3 - 1, 2)*(4*xi_2 + 2*xi_3 - 2) - 7644*(xi_3 - 1)*std::pow(2*xi_2 + xi_3 - 1, 2) + 1326*(2*xi_3 - 2)*std::pow(2*xi_2 + xi_3 - 1, 2) + 2912*std::pow(2*xi_2 + xi_3 - 1, 3))/(-xi_2 - xi_3 + 1) + (1/32)*(18*xi_3 - 1)*(18*xi_1*std::pow(xi_2 + xi_3 - 1, 2) + 15*(-xi_2 - xi_3 + 1)*std::pow(2*xi_1 + xi_2 + xi_3 - 1, 2) + 12*std::pow(xi_2 + xi_3 - 1, 3) - 5*std::pow(2*xi_1 + xi_2 + xi_3 - 1, 3))*(-168*xi_2*std::pow(xi_3 - 1, 3) - 127*std::pow(xi_3 - 1, 4) + 1326*std::pow(xi_3 - 1, 2)*std::pow(2*xi_2 + xi_3 - 1, 2) - 2548*(xi_3 - 1)*std::pow(2*xi_2 + xi_3 - 1, 3) + 1365*std::pow(2*xi_2 + xi_3 - 1, 4))/(-xi_2 - xi_3 + 1) + (1/32)*(18*xi_3 - 1)*(6*xi_1*std::pow(xi_2 + xi_3 - 1, 3) + 5*(-xi_2 - xi_3 + 1)*std::pow(2*xi_1 + xi_2 + xi_3 - 1, 3) + 3*std::pow(xi_2 + xi_3 - 1, 4))*(-168*xi_2*std::pow(xi_3 - 1, 3) - 127*std::pow(xi_3 - 1, 4) + 1326*std::pow(xi_3 - 1, 2)*std::pow(2*xi_2 + xi_3 - 1, 2) - 2548*(xi_3 - 1)*std::pow(2*xi_2 + xi_3 - 1, 3) + 1365*std::pow(2*xi_2 + xi_3 - 1, 4))/std::pow(-xi_2 - xi_3 + 1, 2) + (9/16)*(6*xi_1*std::pow(xi_2 + xi_3 - 1, 3) + 5*(-xi_2 - xi_3 + 1)*std::pow(2*xi_1 + xi_2 + xi_3 - 1, 3) + 3*std::pow(xi_2 + xi_3 - 1, 4))*(-168*xi_2*std::pow(xi_3 - 1, 3) - 127*std::pow(xi_3 - 1, 4) + 1326*std::pow(xi_3 - 1, 2)*std::pow(2*xi_2 + xi_3 - 1, 2) - 2548*(xi_3 - 1)*std::pow(2*xi_2 + xi_3 - 1, 3) + 1365*std::pow(2*xi_2 + xi_3 - 1, 4))/(-xi_2 - xi_3 + 1);
  149 => (1/16)*(6*xi_1*std::pow(xi_2 + xi_3 - 1, 3) + 5*(-xi_2 - xi_3 + 1)*std::pow(2*xi_1 + xi_2 + xi_3 - 1, 3) + 3*std::pow(xi_2 + xi_3 - 1, 4))*(1950*xi_2*std::pow(xi_3 - 1, 4) + 5460*std::pow(-xi_3 + 1, 3)*std::pow(2*xi_2 + xi_3 - 1, 2) - 5460*std::pow(-xi_3 + 1, 2)*std::pow(2*xi_2 + xi_3 - 1, 3) + 7735*(-xi_3 + 1)*std::pow(2*xi_2 + xi_3 - 1, 4) + 1044*std::pow(xi_3 - 1, 5) + 12740*std::pow(xi_3 - 1, 2)*std::pow(2*xi_2 + xi_3 - 1, 3) + 3185*(2*xi_3 - 2)*std::pow(2*xi_2 + xi_3 - 1, 4) - 1547*std::pow(2*xi_2 + xi_3 - 1, 5))/((xi_3 - 1)*(xi_2 + xi_3 - 1)) + (1/16)*(18*xi_1*std::pow(xi_2 + xi_3 - 1, 2) + 15*(-xi_2 - xi_3 + 1)*std::pow(2*xi_1 + xi_2 + xi_3 - 1, 2) + 12*std::pow(xi_2 + xi_3 - 1, 3) - 5*std::pow(2*xi_1 + xi_2 + xi_3 - 1, 3))*(390*xi_2*std::pow(xi_3 - 1, 5) + 1820*std::pow(-xi_3 + 1, 3)*std::pow(2*xi_2 + xi_3 - 1, 3) + 1547*(-xi_3 + 1)*std::pow(2*xi_2 + xi_3 - 1, 5) + 174*std::pow(xi_3 - 1, 6) + 3185*std::pow(xi_3 - 1, 2)*std::pow(2*xi_2 + xi_3 - 1, 4))/((xi_3 - 1)*(xi_2 + xi_3 - 1)) - 1/16*(6*xi_1*std::pow(xi_2 + xi_3 - 1, 3) + 5*(-xi_2 - xi_3 + 1)*std::pow(2*xi_1 + xi_2 + xi_3 - 1, 3) + 3*std::pow(xi_2 + xi_3 - 1, 4))*(390*xi_2*std::pow(xi_3 - 1, 5) + 1820*std::pow(-xi_3 + 1, 3)*std::pow(2*xi_2 + xi_3 - 1, 3) + 1547*(-xi_3 + 1)*std::pow(2*xi_2 + xi_3 - 1, 5) + 174*std::pow(xi_3 - 1, 6) + 3185*std::pow(xi_3 - 1, 2)*std::pow(2*xi_2 + xi_3 - 1, 4))/((xi_3 - 1)*std::pow(xi_2 + xi_3 - 1, 2)) - 1/16*(6*xi_1*std::pow(xi_2 + xi_3 - 1, 3) + 5*(-xi_2 - xi_3 + 1)*std::pow(2*xi_1 + xi_2 + xi_3 - 1, 3) + 3*std::pow(xi_2 + xi_3 - 1, 4))*(390*xi_2*std::pow(xi_3 - 1, 5) + 1820*std::pow(-xi_3 + 1, 3)*std::pow(2*xi_2 + xi_3 - 1, 3) + 1547*(-xi_3 + 1)*std::pow(2*xi_2 + xi_3 - 1, 5) + 174*std::pow(xi_3 - 1, 6) + 3185*std::pow(xi_3 - 1, 2)*std::pow(2*xi_2 + xi_3 - 1, 4))/(std::pow(xi_3 - 1, 2)*(xi_2 + xi_3 - 1));
  150 => (1/32)*(3*std::pow(xi_2 + xi_3 - 1, 4) - 30*std::pow(xi_2 + xi_3 - 1, 2)*std::pow(2*xi_1 + xi_2 + xi_3 - 1, 2) + 35*std::pow(2*xi_1 + xi_2 + xi_3 - 1, 4))*(9840*xi_3 + 6120*std::pow(2*xi_3 - 1, 3) + 10200*std::pow(2*xi_3 - 1, 2) - 4320) + (1/32)*(12*std::pow(xi_2 + xi_3 - 1, 3) - 30*std::pow(xi_2 + xi_3 - 1, 2)*(4*xi_1 + 2*xi_2 + 2*xi_3 - 2) - 30*(2*xi_2 + 2*xi_3 - 2)*std::pow(2*xi_1 + xi_2 + xi_3 - 1, 2) + 140*std::pow(2*xi_1 + xi_2 + xi_3 - 1, 3))*(600*xi_3 + 765*std::pow(2*xi_3 - 1, 4) + 1700*std::pow(2*xi_3 - 1, 3) + 1230*std::pow(2*xi_3 - 1, 2) - 291);
  151 => (1/8)*(11*xi_2 + xi_3 - 1)*(1632*xi_3 + 612*std::pow(2*xi_3 - 1, 2) - 564)*(3*std::pow(xi_2 + xi_3 - 1, 4) - 30*std::pow(xi_2 + xi_3 - 1, 2)*std::pow(2*xi_1 + xi_2 + xi_3 - 1, 2) + 35*std::pow(2*xi_1 + xi_2 + xi_3 - 1, 4)) + (1/8)*(11*xi_2 + xi_3 - 1)*(252*xi_3 + 102*std::pow(2*xi_3 - 1, 3) + 204*std::pow(2*xi_3 - 1, 2) - 103)*(12*std::pow(xi_2 + xi_3 - 1, 3) - 30*std::pow(xi_2 + xi_3 - 1, 2)*(4*xi_1 + 2*xi_2 + 2*xi_3 - 2) - 30*(2*xi_2 + 2*xi_3 - 2)*std::pow(2*xi_1 + xi_2 + xi_3 - 1, 2) + 140*std::pow(2*xi_1 + xi_2 + xi_3 - 1, 3)) + (1/8)*(3*std::pow(xi_2 + xi_3 - 1, 4) - 30*std::pow(xi_2 + xi_3 - 1, 2)*std::pow(2*xi_1 + xi_2 + xi_3 - 1, 2) + 35*std::pow(2*xi_1 + xi_2 + xi_3 - 1, 4))*(252*xi_3 + 102*std::pow(2*xi_3 - 1, 3) + 204*std::pow(2*xi_3 - 1, 2) - 103);
  152 => -(1224*xi_3 - 136)*(108*xi_2*std::pow(xi_3 - 1, 2) + 37*std::pow(xi_3 - 1, 3) - 39*(xi_3 - 1)*std::pow(2*xi_2 + xi_3 - 1, 2))*(3*std::pow(xi_2 + xi_3 - 1, 4) - 30*std::pow(xi_2 + xi_3 - 1, 2)*std::pow(2*xi_1 + xi_2 + xi_3 - 1, 2) + 35*std::pow(2*xi_1 + xi_2 + xi_3 - 1, 4))/(64*xi_3 - 64) - (476*xi_3 + 153*std::pow(2*xi_3 - 1, 2) - 149)*(108*xi_2*std::pow(xi_3 - 1, 2) + 37*std::pow(xi_3 - 1, 3) - 39*(xi_3 - 1)*std::pow(2*xi_2 + xi_3 - 1, 2))*(12*std::pow(xi_2 + xi_3 - 1, 3) - 30*std::pow(xi_2 + xi_3 - 1, 2)*(4*xi_1 + 2*xi_2 + 2*xi_3 - 2) - 30*(2*xi_2 + 2*xi_3 - 2)*std::pow(2*xi_1 + xi_2 + xi_3 - 1, 2) + 140*std::pow(2*xi_1 + xi_2 + xi_3 - 1, 3))/(64*xi_3 - 64) - (476*xi_3 + 153*std::pow(2*xi_3 - 1, 2) - 149)*(3*std::pow(xi_2 + xi_3 - 1, 4) - 30*std::pow(xi_2 + xi_3 - 1, 2)*std::pow(2*xi_1 + xi_2 + xi_3 - 1, 2) + 35*std::pow(2*xi_1 + xi_2 + xi_3 - 1, 4))*(108*xi_2*(2*xi_3 - 2) + 111*std::pow(xi_3 - 1, 2) - 39*(xi_3 - 1)*(4*xi_2 + 2*xi_3 - 2) - 39*std::pow(2*xi_2 + xi_3 - 1, 2))/(64*xi_3 - 64) + 64*(476*xi_3 + 153*std::pow(2*xi_3 - 1, 2) - 149)*(108*xi_2*std::pow(xi_3 - 1, 2) + 37*std::pow(xi_3 - 1, 3) - 39*(xi_3 - 1)*std::pow(2*xi_2 + xi_3 - 1, 2))*(3*std::pow(xi_2 + xi_3 - 1, 4) - 30*std::pow(xi_2 + xi_3 - 1, 2)*std::pow(2*xi_1 + xi_2 + xi_3 - 1, 2) + 35*std::pow(2*xi_1 + xi_2 + xi_3 - 1, 4))/std::pow(64*xi_3 - 64, 2);
  153 => (1/64)*(18*xi_3 - 1)*(3*std::pow(xi_2 + xi_3 - 1, 4) - 30*std::pow(xi_2 + xi_3 - 1, 2)*std::pow(2*xi_1 + xi_2 + xi_3 - 1, 2) + 35*std::pow(2*xi_1 + xi_2 + xi_3 - 1, 4))*(2574*xi_2*std::pow(xi_3 - 1, 2) - 819*std::pow(-xi_3 + 1, 2)*(4*xi_2 + 2*xi_3 - 2) - 1365*(-xi_3 + 1)*std::pow(-2*xi_2 - xi_3 + 1, 2) + 1488*std::pow(xi_3 - 1, 3) - 819*(2*xi_3 - 2)*std::pow(-2*xi_2 - xi_3 + 1, 2) - 455*std::pow(-2*xi_2 - xi_3 + 1, 3))/(xi_3 - 1) + (1/64)*(18*xi_3 - 1)*(858*xi_2*std::pow(xi_3 - 1, 3) - 819*std::pow(-xi_3 + 1, 2)*std::pow(-2*xi_2 - xi_3 + 1, 2) + 455*(-xi_3 + 1)*std::pow(-2*xi_2 - xi_3 + 1, 3) + 372*std::pow(xi_3 - 1, 4))*(12*std::pow(xi_2 + xi_3 - 1, 3) - 30*std::pow(xi_2 + xi_3 - 1, 2)*(4*xi_1 + 2*xi_2 + 2*xi_3 - 2) - 30*(2*xi_2 + 2*xi_3 - 2)*std::pow(2*xi_1 + xi_2 + xi_3 - 1, 2) + 140*std::pow(2*xi_1 + xi_2 + xi_3 - 1, 3))/(xi_3 - 1) + (9/32)*(3*std::pow(xi_2 + xi_3 - 1, 4) - 30*std::pow(xi_2 + xi_3 - 1, 2)*std::pow(2*xi_1 + xi_2 + xi_3 - 1, 2) + 35*std::pow(2*xi_1 + xi_2 + xi_3 - 1, 4))*(858*xi_2*std::pow(xi_3 - 1, 3) - 819*std::pow(-xi_3 + 1, 2)*std::pow(-2*xi_2 - xi_3 + 1, 2) + 455*(-xi_3 + 1)*std::pow(-2*xi_2 - xi_3 + 1, 3) + 372*std::pow(xi_3 - 1, 4))/(xi_3 - 1) - 1/64*(18*xi_3 - 1)*(3*std::pow(xi_2 + xi_3 - 1, 4) - 30*std::pow(xi_2 + xi_3 - 1, 2)*std::pow(2*xi_1 + xi_2 + xi_3 - 1, 2) + 35*std::pow(2*xi_1 + xi_2 + xi_3 - 1, 4))*(858*xi_2*std::pow(xi_3 - 1, 3) - 819*std::pow(-xi_3 + 1, 2)*std::pow(-2*xi_2 - xi_3 + 1, 2) + 455*(-xi_3 + 1)*std::pow(-2*xi_2 - xi_3 + 1, 3) + 372*std::pow(xi_3 - 1, 4))/std::pow(xi_3 - 1, 2);
  154 => (1/32)*(3*std::pow(xi_2 + xi_3 - 1, 4) - 30*std::pow(xi_2 + xi_3 - 1, 2)*std::pow(2*xi_1 + xi_2 + xi_3 - 1, 2) + 35*std::pow(2*xi_1 + xi_2 + xi_3 - 1, 4))*(-1008*xi_2*std::pow(xi_3 - 1, 2) - 684*std::pow(xi_3 - 1, 3) + 840*std::pow(xi_3 - 1, 2)*(4*xi_2 + 2*xi_3 - 2) - 3780*(xi_3 - 1)*std::pow(2*xi_2 + xi_3 - 1, 2) + 840*(2*xi_3 - 2)*std::pow(2*xi_2 + xi_3 - 1, 2) + 1120*std::pow(2*xi_2 + xi_3 - 1, 3)) + (1/32)*(12*std::pow(xi_2 + xi_3 - 1, 3) - 30*std::pow(xi_2 + xi_3 - 1, 2)*(4*xi_1 + 2*xi_2 + 2*xi_3 - 2) - 30*(2*xi_2 + 2*xi_3 - 2)*std::pow(2*xi_1 + xi_2 + xi_3 - 1, 2) + 140*std::pow(2*xi_1 + xi_2 + xi_3 - 1, 3))*(-336*xi_2*std::pow(xi_3 - 1, 3) - 171*std::pow(xi_3 - 1, 4) + 840*std::pow(xi_3 - 1, 2)*std::pow(2*xi_2 + xi_3 - 1, 2) - 1260*(xi_3 - 1)*std::pow(2*xi_2 + xi_3 - 1, 3) + 595*std::pow(2*xi_2 + xi_3 - 1, 4));
  155 => (1/8)*(1632*xi_3 + 612*std::pow(2*xi_3 - 1, 2) - 564)*(30*xi_1*std::pow(xi_2 + xi_3 - 1, 5) + 63*(-xi_2 - xi_3 + 1)*std::pow(-2*xi_1 - xi_2 - xi_3 + 1, 5) + 15*std::pow(xi_2 + xi_3 - 1, 6) + 70*std::pow(xi_2 + xi_3 - 1, 3)*std::pow(-2*xi_1 - xi_2 - xi_3 + 1, 3))/(xi_2 + xi_3 - 1) + (1/8)*(252*xi_3 + 102*std::pow(2*xi_3 - 1, 3) + 204*std::pow(2*xi_3 - 1, 2) - 103)*(150*xi_1*std::pow(xi_2 + xi_3 - 1, 4) - 315*(-xi_2 - xi_3 + 1)*std::pow(-2*xi_1 - xi_2 - xi_3 + 1, 4) + 90*std::pow(xi_2 + xi_3 - 1, 5) - 210*std::pow(xi_2 + xi_3 - 1, 3)*std::pow(-2*xi_1 - xi_2 - xi_3 + 1, 2) + 210*std::pow(xi_2 + xi_3 - 1, 2)*std::pow(-2*xi_1 - xi_2 - xi_3 + 1, 3) - 63*std::pow(-2*xi_1 - xi_2 - xi_3 + 1, 5))/(xi_2 + xi_3 - 1) - 1/8*(252*xi_3 + 102*std::pow(2*xi_3 - 1, 3) + 204*std::pow(2*xi_3 - 1, 2) - 103)*(30*xi_1*std::pow(xi_2 + xi_3 - 1, 5) + 63*(-xi_2 - xi_3 + 1)*std::pow(-2*xi_1 - xi_2 - xi_3 + 1, 5) + 15*std::pow(xi_2 + xi_3 - 1, 6) + 70*std::pow(xi_2 + xi_3 - 1, 3)*std::pow(-2*xi_1 - xi_2 - xi_3 + 1, 3))/std::pow(xi_2 + xi_3 - 1, 2);
  156 => (1/32)*(1224*xi_3 - 136)*(13*xi_2 + xi_3 - 1)*(30*xi_1*std::pow(xi_2 + xi_3 - 1, 5) + 63*(-xi_2 - xi_3 + 1)*std::pow(-2*xi_1 - xi_2 - xi_3 + 1, 5) + 15*std::pow(xi_2 + xi_3 - 1, 6) + 70*std::pow(xi_2 + xi_3 - 1, 3)*std::pow(-2*xi_1 - xi_2 - xi_3 + 1, 3))/(xi_2 + xi_3 - 1) + (1/32)*(13*xi_2 + xi_3 - 1)*(476*xi_3 + 153*std::pow(2*xi_3 - 1, 2) - 149)*(150*xi_1*std::pow(xi_2 + xi_3 - 1, 4) - 315*(-xi_2 - xi_3 + 1)*std::pow(-2*xi_1 - xi_2 - xi_3 + 1, 4) + 90*std::pow(xi_2 + xi_3 - 1, 5) - 210*std::pow(xi_2 + xi_3 - 1, 3)*std::pow(-2*xi_1 - xi_2 - xi_3 + 1, 2) + 210*std::pow(xi_2 + xi_3 - 1, 2)*std::pow(-2*xi_1 - xi_2 - xi_3 + 1, 3) - 63*std::pow(-2*xi_1 - xi_2 - xi_3 + 1, 5))/(xi_2 + xi_3 - 1) + (1/32)*(476*xi_3 + 153*std::pow(2*xi_3 - 1, 2) - 149)*(30*xi_1*std::pow(xi_2 + xi_3 - 1, 5) + 63*(-xi_2 - xi_3 + 1)*std::pow(-2*xi_1 - xi_2 - xi_3 + 1, 5) + 15*std::pow(xi_2 + xi_3 - 1, 6) + 70*std::pow(xi_2 + xi_3 - 1, 3)*std::pow(-2*xi_1 - xi_2 - xi_3 + 1, 3))/(xi_2 + xi_3 - 1) - 1/32*(13*xi_2 + xi_3 - 1)*(476*xi_3 + 153*std::pow(2*xi_3 - 1, 2) - 149)*(30*xi_1*std::pow(xi_2 + xi_3 - 1, 5) + 63*(-xi_2 - xi_3 + 1)*std::pow(-2*xi_1 - xi_2 - xi_3 + 1, 5) + 15*std::pow(xi_2 + xi_3 - 1, 6) + 70*std::pow(xi_2 + xi_3 - 1, 3)*std::pow(-2*xi_1 - xi_2 - xi_3 + 1, 3))/std::pow(xi_2 + xi_3 - 1, 2);
  157 => -1/32*(18*xi_3 - 1)*(308*xi_2*std::pow(xi_3 - 1, 2) + 101*std::pow(xi_3 - 1, 3) - 105*(xi_3 - 1)*std::pow(2*xi_2 + xi_3 - 1, 2))*(150*xi_1*std::pow(xi_2 + xi_3 - 1, 4) + 90*std::pow(xi_2 + xi_3 - 1, 5) - 210*std::pow(xi_2 + xi_3 - 1, 3)*std::pow(2*xi_1 + xi_2 + xi_3 - 1, 2) - 210*std::pow(xi_2 + xi_3 - 1, 2)*std::pow(2*xi_1 + xi_2 + xi_3 - 1, 3) + 315*(xi_2 + xi_3 - 1)*std::pow(2*xi_1 + xi_2 + xi_3 - 1, 4) + 63*std::pow(2*xi_1 + xi_2 + xi_3 - 1, 5))/((xi_3 - 1)*(xi_2 + xi_3 - 1)) - 1/32*(18*xi_3 - 1)*(30*xi_1*std::pow(xi_2 + xi_3 - 1, 5) + 15*std::pow(xi_2 + xi_3 - 1, 6) - 70*std::pow(xi_2 + xi_3 - 1, 3)*std::pow(2*xi_1 + xi_2 + xi_3 - 1, 3) + 63*(xi_2 + xi_3 - 1)*std::pow(2*xi_1 + xi_2 + xi_3 - 1, 5))*(308*xi_2*(2*xi_3 - 2) + 303*std::pow(xi_3 - 1, 2) - 105*(xi_3 - 1)*(4*xi_2 + 2*xi_3 - 2) - 105*std::pow(2*xi_2 + xi_3 - 1, 2))/((xi_3 - 1)*(xi_2 + xi_3 - 1)) + (1/32)*(18*xi_3 - 1)*(308*xi_2*std::pow(xi_3 - 1, 2) + 101*std::pow(xi_3 - 1, 3) - 105*(xi_3 - 1)*std::pow(2*xi_2 + xi_3 - 1, 2))*(30*xi_1*std::pow(xi_2 + xi_3 - 1, 5) + 15*std::pow(xi_2 + xi_3 - 1, 6) - 70*std::pow(xi_2 + xi_3 - 1, 3)*std::pow(2*xi_1 + xi_2 + xi_3 - 1, 3) + 63*(xi_2 + xi_3 - 1)*std::pow(2*xi_1 + xi_2 + xi_3 - 1, 5))/((xi_3 - 1)*std::pow(xi_2 + xi_3 - 1, 2)) - 9/16*(308*xi_2*std::pow(xi_3 - 1, 2) + 101*std::pow(xi_3 - 1, 3) - 105*(xi_3 - 1)*std::pow(2*xi_2 + xi_3 - 1, 2))*(30*xi_1*std::pow(xi_2 + xi_3 - 1, 5) + 15*std::pow(xi_2 + xi_3 - 1, 6) - 70*std::pow(xi_2 + xi_3 - 1, 3)*std::pow(2*xi_1 + xi_2 + xi_3 - 1, 3) + 63*(xi_2 + xi_3 - 1)*std::pow(2*xi_1 + xi_2 + xi_3 - 1, 5))/((xi_3 - 1)*(xi_2 + xi_3 - 1)) + (1/32)*(18*xi_3 - 1)*(308*xi_2*std::pow(xi_3 - 1, 2) + 101*std::pow(xi_3 - 1, 3) - 105*(xi_3 - 1)*std::pow(2*xi_2 + xi_3 - 1, 2))*(30*xi_1*std::pow(xi_2 + xi_3 - 1, 5) + 15*std::pow(xi_2 + xi_3 - 1, 6) - 70*std::pow(xi_2 + xi_3 - 1, 3)*std::pow(2*xi_1 + xi_2 + xi_3 - 1, 3) + 63*(xi_2 + xi_3 - 1)*std::pow(2*xi_1 + xi_2 + xi_3 - 1, 5))/(std::pow(xi_3 - 1, 2)*(xi_2 + xi_3 - 1));
  158 => (1/8)*(30*xi_1*std::pow(xi_2 + xi_3 - 1, 5) + 63*(-xi_2 - xi_3 + 1)*std::pow(-2*xi_1 - xi_2 - xi_3 + 1, 5) + 15*std::pow(xi_2 + xi_3 - 1, 6) + 70*std::pow(xi_2 + xi_3 - 1, 3)*std::pow(-2*xi_1 - xi_2 - xi_3 + 1, 3))*(195*xi_2*(2*xi_3 - 2) + 243*std::pow(xi_3 - 1, 2) - 165*(xi_3 - 1)*(4*xi_2 + 2*xi_3 - 2) + 90*std::pow(-2*xi_2 - xi_3 + 1, 2))/(xi_2 + xi_3 - 1) + (1/8)*(195*xi_2*std::pow(xi_3 - 1, 2) + 81*std::pow(xi_3 - 1, 3) - 165*(xi_3 - 1)*std::pow(-2*xi_2 - xi_3 + 1, 2) - 85*std::pow(-2*xi_2 - xi_3 + 1, 3))*(150*xi_1*std::pow(xi_2 + xi_3 - 1, 4) - 315*(-xi_2 - xi_3 + 1)*std::pow(-2*xi_1 - xi_2 - xi_3 + 1, 4) + 90*std::pow(xi_2 + xi_3 - 1, 5) - 210*std::pow(xi_2 + xi_3 - 1, 3)*std::pow(-2*xi_1 - xi_2 - xi_3 + 1, 2) + 210*std::pow(xi_2 + xi_3 - 1, 2)*std::pow(-2*xi_1 - xi_2 - xi_3 + 1, 3) - 63*std::pow(-2*xi_1 - xi_2 - xi_3 + 1, 5))/(xi_2 + xi_3 - 1) - 1/8*(30*xi_1*std::pow(xi_2 + xi_3 - 1, 5) + 63*(-xi_2 - xi_3 + 1)*std::pow(-2*xi_1 - xi_2 - xi_3 + 1, 5) + 15*std::pow(xi_2 + xi_3 - 1, 6) + 70*std::pow(xi_2 + xi_3 - 1, 3)*std::pow(-2*xi_1 - xi_2 - xi_3 + 1, 3))*(195*xi_2*std::pow(xi_3 - 1, 2) + 81*std::pow(xi_3 - 1, 3) - 165*(xi_3 - 1)*std::pow(-2*xi_2 - xi_3 + 1, 2) - 85*std::pow(-2*xi_2 - xi_3 + 1, 3))/std::pow(xi_2 + xi_3 - 1, 2);
  159 => (1/64)*(1224*xi_3 - 136)*(-5*std::pow(xi_2 + xi_3 - 1, 6) + 105*std::pow(xi_2 + xi_3 - 1, 4)*std::pow(2*xi_1 + xi_2 + xi_3 - 1, 2) - 315*std::pow(xi_2 + xi_3 - 1, 2)*std::pow(2*xi_1 + xi_2 + xi_3 - 1, 4) + 231*std::pow(2*xi_1 + xi_2 + xi_3 - 1, 6)) + (1/64)*(476*xi_3 + 153*std::pow(2*xi_3 - 1, 2) - 149)*(-30*std::pow(xi_2 + xi_3 - 1, 5) + 105*std::pow(xi_2 + xi_3 - 1, 4)*(4*xi_1 + 2*xi_2 + 2*xi_3 - 2) + 420*std::pow(xi_2 + xi_3 - 1, 3)*std::pow(2*xi_1 + xi_2 + xi_3 - 1, 2) - 1260*std::pow(xi_2 + xi_3 - 1, 2)*std::pow(2*xi_1 + xi_2 + xi_3 - 1, 3) - 315*(2*xi_2 + 2*xi_3 - 2)*std::pow(2*xi_1 + xi_2 + xi_3 - 1, 4) + 1386*std::pow(2*xi_1 + xi_2 + xi_3 - 1, 5));
  160 => (1/16)*(18*xi_3 - 1)*(15*xi_2 + xi_3 - 1)*(-30*std::pow(xi_2 + xi_3 - 1, 5) + 105*std::pow(xi_2 + xi_3 - 1, 4)*(4*xi_1 + 2*xi_2 + 2*xi_3 - 2) + 420*std::pow(xi_2 + xi_3 - 1, 3)*std::pow(2*xi_1 + xi_2 + xi_3 - 1, 2) - 1260*std::pow(xi_2 + xi_3 - 1, 2)*std::pow(2*xi_1 + xi_2 + xi_3 - 1, 3) - 315*(2*xi_2 + 2*xi_3 - 2)*std::pow(2*xi_1 + xi_2 + xi_3 - 1, 4) + 1386*std::pow(2*xi_1 + xi_2 + xi_3 - 1, 5)) + (1/16)*(18*xi_3 - 1)*(-5*std::pow(xi_2 + xi_3 - 1, 6) + 105*std::pow(xi_2 + xi_3 - 1, 4)*std::pow(2*xi_1 + xi_2 + xi_3 - 1, 2) - 315*std::pow(xi_2 + xi_3 - 1, 2)*std::pow(2*xi_1 + xi_2 + xi_3 - 1, 4) + 231*std::pow(2*xi_1 + xi_2 + xi_3 - 1, 6)) + (9/8)*(15*xi_2 + xi_3 - 1)*(-5*std::pow(xi_2 + xi_3 - 1, 6) + 105*std::pow(xi_2 + xi_3 - 1, 4)*std::pow(2*xi_1 + xi_2 + xi_3 - 1, 2) - 315*std::pow(xi_2 + xi_3 - 1, 2)*std::pow(2*xi_1 + xi_2 + xi_3 - 1, 4) + 231*std::pow(2*xi_1 + xi_2 + xi_3 - 1, 6));
  161 => (104*xi_2*std::pow(xi_3 - 1, 2) + 33*std::pow(xi_3 - 1, 3) - 34*(xi_3 - 1)*std::pow(2*xi_2 + xi_3 - 1, 2))*(30*std::pow(xi_2 + xi_3 - 1, 5) - 105*std::pow(xi_2 + xi_3 - 1, 4)*(4*xi_1 + 2*xi_2 + 2*xi_3 - 2) - 420*std::pow(xi_2 + xi_3 - 1, 3)*std::pow(2*xi_1 + xi_2 + xi_3 - 1, 2) + 1260*std::pow(xi_2 + xi_3 - 1, 2)*std::pow(2*xi_1 + xi_2 + xi_3 - 1, 3) + 315*(2*xi_2 + 2*xi_3 - 2)*std::pow(2*xi_1 + xi_2 + xi_3 - 1, 4) - 1386*std::pow(2*xi_1 + xi_2 + xi_3 - 1, 5))/(16*xi_3 - 16) + (104*xi_2*(2*xi_3 - 2) + 99*std::pow(xi_3 - 1, 2) - 34*(xi_3 - 1)*(4*xi_2 + 2*xi_3 - 2) - 34*std::pow(2*xi_2 + xi_3 - 1, 2))*(5*std::pow(xi_2 + xi_3 - 1, 6) - 105*std::pow(xi_2 + xi_3 - 1, 4)*std::pow(2*xi_1 + xi_2 + xi_3 - 1, 2) + 315*std::pow(xi_2 + xi_3 - 1, 2)*std::pow(2*xi_1 + xi_2 + xi_3 - 1, 4) - 231*std::pow(2*xi_1 + xi_2 + xi_3 - 1, 6))/(16*xi_3 - 16) - 16*(104*xi_2*std::pow(xi_3 - 1, 2) + 33*std::pow(xi_3 - 1, 3) - 34*(xi_3 - 1)*std::pow(2*xi_2 + xi_3 - 1, 2))*(5*std::pow(xi_2 + xi_3 - 1, 6) - 105*std::pow(xi_2 + xi_3 - 1, 4)*std::pow(2*xi_1 + xi_2 + xi_3 - 1, 2) + 315*std::pow(xi_2 + xi_3 - 1, 2)*std::pow(2*xi_1 + xi_2 + xi_3 - 1, 4) - 231*std::pow(2*xi_1 + xi_2 + xi_3 - 1, 6))/std::pow(16*xi_3 - 16, 2);
  162 => -(18*xi_3 - 1)*(490*xi_1*std::pow(xi_2 + xi_3 - 1, 6) + 280*std::pow(xi_2 + xi_3 - 1, 7) - 945*std::pow(xi_2 + xi_3 - 1, 5)*std::pow(2*xi_1 + xi_2 + xi_3 - 1, 2) - 1575*std::pow(xi_2 + xi_3 - 1, 4)*std::pow(2*xi_1 + xi_2 + xi_3 - 1, 3) + 3465*std::pow(xi_2 + xi_3 - 1, 3)*std::pow(2*xi_1 + xi_2 + xi_3 - 1, 4) + 2079*std::pow(xi_2 + xi_3 - 1, 2)*std::pow(2*xi_1 + xi_2 + xi_3 - 1, 5) - 3003*(xi_2 + xi_3 - 1)*std::pow(2*xi_1 + xi_2 + xi_3 - 1, 6) - 429*std::pow(2*xi_1 + xi_2 + xi_3 - 1, 7))/(16*xi_2 + 16*xi_3 - 16) + 16*(18*xi_3 - 1)*(70*xi_1*std::pow(xi_2 + xi_3 - 1, 7) + 35*std::pow(xi_2 + xi_3 - 1, 8) - 315*std::pow(xi_2 + xi_3 - 1, 5)*std::pow(2*xi_1 + xi_2 + xi_3 - 1, 3) + 693*std::pow(xi_2 + xi_3 - 1, 3)*std::pow(2*xi_1 + xi_2 + xi_3 - 1, 5) - 429*(xi_2 + xi_3 - 1)*std::pow(2*xi_1 + xi_2 + xi_3 - 1, 7))/std::pow(16*xi_2 + 16*xi_3 - 16, 2) - 18*(70*xi_1*std::pow(xi_2 + xi_3 - 1, 7) + 35*std::pow(xi_2 + xi_3 - 1, 8) - 315*std::pow(xi_2 + xi_3 - 1, 5)*std::pow(2*xi_1 + xi_2 + xi_3 - 1, 3) + 693*std::pow(xi_2 + xi_3 - 1, 3)*std::pow(2*xi_1 + xi_2 + xi_3 - 1, 5) - 429*(xi_2 + xi_3 - 1)*std::pow(2*xi_1 + xi_2 + xi_3 - 1, 7))/(16*xi_2 + 16*xi_3 - 16);
  163 => -(17*xi_2 + xi_3 - 1)*(490*xi_1*std::pow(xi_2 + xi_3 - 1, 6) + 280*std::pow(xi_2 + xi_3 - 1, 7) - 945*std::pow(xi_2 + xi_3 - 1, 5)*std::pow(2*xi_1 + xi_2 + xi_3 - 1, 2) - 1575*std::pow(xi_2 + xi_3 - 1, 4)*std::pow(2*xi_1 + xi_2 + xi_3 - 1, 3) + 3465*std::pow(xi_2 + xi_3 - 1, 3)*std::pow(2*xi_1 + xi_2 + xi_3 - 1, 4) + 2079*std::pow(xi_2 + xi_3 - 1, 2)*std::pow(2*xi_1 + xi_2 + xi_3 - 1, 5) - 3003*(xi_2 + xi_3 - 1)*std::pow(2*xi_1 + xi_2 + xi_3 - 1, 6) - 429*std::pow(2*xi_1 + xi_2 + xi_3 - 1, 7))/(16*xi_2 + 16*xi_3 - 16) - (70*xi_1*std::pow(xi_2 + xi_3 - 1, 7) + 35*std::pow(xi_2 + xi_3 - 1, 8) - 315*std::pow(xi_2 + xi_3 - 1, 5)*std::pow(2*xi_1 + xi_2 + xi_3 - 1, 3) + 693*std::pow(xi_2 + xi_3 - 1, 3)*std::pow(2*xi_1 + xi_2 + xi_3 - 1, 5) - 429*(xi_2 + xi_3 - 1)*std::pow(2*xi_1 + xi_2 + xi_3 - 1, 7))/(16*xi_2 + 16*xi_3 - 16) + 16*(17*xi_2 + xi_3 - 1)*(70*xi_1*std::pow(xi_2 + xi_3 - 1, 7) + 35*std::pow(xi_2 + xi_3 - 1, 8) - 315*std::pow(xi_2 + xi_3 - 1, 5)*std::pow(2*xi_1 + xi_2 + xi_3 - 1, 3) + 693*std::pow(xi_2 + xi_3 - 1, 3)*std::pow(2*xi_1 + xi_2 + xi_3 - 1, 5) - 429*(xi_2 + xi_3 - 1)*std::pow(2*xi_1 + xi_2 + xi_3 - 1, 7))/std::pow(16*xi_2 + 16*xi_3 - 16, 2);
  164 => (35/16)*std::pow(xi_2 + xi_3 - 1, 7) - 315/32*std::pow(xi_2 + xi_3 - 1, 6)*(4*xi_1 + 2*xi_2 + 2*xi_3 - 2) - 945/16*std::pow(xi_2 + xi_3 - 1, 5)*std::pow(2*xi_1 + xi_2 + xi_3 - 1, 2) + (3465/16)*std::pow(xi_2 + xi_3 - 1, 4)*std::pow(2*xi_1 + xi_2 + xi_3 - 1, 3) + (3465/16)*std::pow(xi_2 + xi_3 - 1, 3)*std::pow(2*xi_1 + xi_2 + xi_3 - 1, 4) - 9009/16*std::pow(xi_2 + xi_3 - 1, 2)*std::pow(2*xi_1 + xi_2 + xi_3 - 1, 5) - 3003/32*(2*xi_2 + 2*xi_3 - 2)*std::pow(2*xi_1 + xi_2 + xi_3 - 1, 6) + (6435/16)*std::pow(2*xi_1 + xi_2 + xi_3 - 1, 7);
  165 => 1511640*std::pow(xi_3, 8) - 5441904*std::pow(xi_3, 7) + 8019648*std::pow(xi_3, 6) - 6237504*std::pow(xi_3, 5) + 2751840*std::pow(xi_3, 4) - 687960*std::pow(xi_3, 3) + 91728*std::pow(xi_3, 2) - 5616*xi_3 + 108;
  166 => -91/8*xi_3 + (62985/128)*std::pow(2*xi_3 - 1, 8) + (12597/16)*std::pow(2*xi_3 - 1, 7) - 4641/32*std::pow(2*xi_3 - 1, 6) - 10829/16*std::pow(2*xi_3 - 1, 5) - 8645/64*std::pow(2*xi_3 - 1, 4) + (2275/16)*std::pow(2*xi_3 - 1, 3) + (1183/32)*std::pow(2*xi_3 - 1, 2) + (1/128)*(3*xi_2 + xi_3 - 1)*(37856*xi_3 + 1007760*std::pow(2*xi_3 - 1, 7) + 1410864*std::pow(2*xi_3 - 1, 6) - 222768*std::pow(2*xi_3 - 1, 5) - 866320*std::pow(2*xi_3 - 1, 4) - 138320*std::pow(2*xi_3 - 1, 3) + 109200*std::pow(2*xi_3 - 1, 2) - 20384) + 609/128;
  167 => -(4*xi_2*std::pow(xi_3 - 1, 2) + 3*std::pow(xi_3 - 1, 3) - 5*(xi_3 - 1)*std::pow(2*xi_2 + xi_3 - 1, 2))*(-840*xi_3 + 135660*std::pow(2*xi_3 - 1, 6) + 244188*std::pow(2*xi_3 - 1, 5) + 85680*std::pow(2*xi_3 - 1, 4) - 52360*std::pow(2*xi_3 - 1, 3) - 28980*std::pow(2*xi_3 - 1, 2) + 1036)/(32*xi_3 - 32) - (4*xi_2*(2*xi_3 - 2) + 9*std::pow(xi_3 - 1, 2) - 5*(xi_3 - 1)*(4*xi_2 + 2*xi_3 - 2) - 5*std::pow(2*xi_2 + xi_3 - 1, 2))*(616*xi_3 + 9690*std::pow(2*xi_3 - 1, 7) + 20349*std::pow(2*xi_3 - 1, 6) + 8568*std::pow(2*xi_3 - 1, 5) - 6545*std::pow(2*xi_3 - 1, 4) - 4830*std::pow(2*xi_3 - 1, 3) - 105*std::pow(2*xi_3 - 1, 2) - 287)/(32*xi_3 - 32) + 32*(4*xi_2*std::pow(xi_3 - 1, 2) + 3*std::pow(xi_3 - 1, 3) - 5*(xi_3 - 1)*std::pow(2*xi_2 + xi_3 - 1, 2))*(616*xi_3 + 9690*std::pow(2*xi_3 - 1, 7) + 20349*std::pow(2*xi_3 - 1, 6) + 8568*std::pow(2*xi_3 - 1, 5) - 6545*std::pow(2*xi_3 - 1, 4) - 4830*std::pow(2*xi_3 - 1, 3) - 105*std::pow(2*xi_3 - 1, 2) - 287)/std::pow(32*xi_3 - 32, 2);
  168 => -(30*xi_2*std::pow(xi_3 - 1, 3) + 12*std::pow(xi_3 - 1, 4) + 15*std::pow(xi_3 - 1, 2)*std::pow(2*xi_2 + xi_3 - 1, 2) - 35*(xi_3 - 1)*std::pow(2*xi_2 + xi_3 - 1, 3))*(-9960*xi_3 + 58140*std::pow(2*xi_3 - 1, 5) + 116280*std::pow(2*xi_3 - 1, 4) + 67320*std::pow(2*xi_3 - 1, 3) + 4080*std::pow(2*xi_3 - 1, 2) + 4380)/(64*xi_3 - 64) - (90*xi_2*std::pow(xi_3 - 1, 2) + 48*std::pow(xi_3 - 1, 3) + 15*std::pow(xi_3 - 1, 2)*(4*xi_2 + 2*xi_3 - 2) - 105*(xi_3 - 1)*std::pow(2*xi_2 + xi_3 - 1, 2) + 15*(2*xi_3 - 2)*std::pow(2*xi_2 + xi_3 - 1, 2) - 35*std::pow(2*xi_2 + xi_3 - 1, 3))*(-600*xi_3 + 4845*std::pow(2*xi_3 - 1, 6) + 11628*std::pow(2*xi_3 - 1, 5) + 8415*std::pow(2*xi_3 - 1, 4) + 680*std::pow(2*xi_3 - 1, 3) - 1245*std::pow(2*xi_3 - 1, 2) + 301)/(64*xi_3 - 64) + 64*(30*xi_2*std::pow(xi_3 - 1, 3) + 12*std::pow(xi_3 - 1, 4) + 15*std::pow(xi_3 - 1, 2)*std::pow(2*xi_2 + xi_3 - 1, 2) - 35*(xi_3 - 1)*std::pow(2*xi_2 + xi_3 - 1, 3))*(-600*xi_3 + 4845*std::pow(2*xi_3 - 1, 6) + 11628*std::pow(2*xi_3 - 1, 5) + 8415*std::pow(2*xi_3 - 1, 4) + 680*std::pow(2*xi_3 - 1, 3) - 1245*std::pow(2*xi_3 - 1, 2) + 301)/std::pow(64*xi_3 - 64, 2);
  169 => (1/32)*(9520*xi_3 + 19380*std::pow(2*xi_3 - 1, 4) + 38760*std::pow(2*xi_3 - 1, 3) + 24480*std::pow(2*xi_3 - 1, 2) - 4780)*(24*xi_2*std::pow(xi_3 - 1, 3) + 15*std::pow(xi_3 - 1, 4) - 42*std::pow(xi_3 - 1, 2)*std::pow(2*xi_2 + xi_3 - 1, 2) - 28*(xi_3 - 1)*std::pow(2*xi_2 + xi_3 - 1, 3) + 63*std::pow(2*xi_2 + xi_3 - 1, 4)) + (1/32)*(-20*xi_3 + 1938*std::pow(2*xi_3 - 1, 5) + 4845*std::pow(2*xi_3 - 1, 4) + 4080*std::pow(2*xi_3 - 1, 3) + 1190*std::pow(2*xi_3 - 1, 2) - 21)*(72*xi_2*std::pow(xi_3 - 1, 2) + 60*std::pow(xi_3 - 1, 3) - 42*std::pow(xi_3 - 1, 2)*(4*xi_2 + 2*xi_3 - 2) - 84*(xi_3 - 1)*std::pow(2*xi_2 + xi_3 - 1, 2) - 42*(2*xi_3 - 2)*std::pow(2*xi_2 + xi_3 - 1, 2) + 224*std::pow(2*xi_2 + xi_3 - 1, 3));
  170 => (1/256)*(75888*xi_3 + 38760*std::pow(2*xi_3 - 1, 3) + 69768*std::pow(2*xi_3 - 1, 2) - 32096)*(70*xi_2*std::pow(xi_3 - 1, 5) - 105*std::pow(-xi_3 + 1, 2)*std::pow(-2*xi_2 - xi_3 + 1, 4) + 231*(-xi_3 + 1)*std::pow(-2*xi_2 - xi_3 + 1, 5) + 30*std::pow(xi_3 - 1, 6) + 70*std::pow(xi_3 - 1, 4)*std::pow(-2*xi_2 - xi_3 + 1, 2) + 210*std::pow(xi_3 - 1, 3)*std::pow(-2*xi_2 - xi_3 + 1, 3))/(xi_3 - 1) + (1/256)*(5848*xi_3 + 4845*std::pow(2*xi_3 - 1, 4) + 11628*std::pow(2*xi_3 - 1, 3) + 9486*std::pow(2*xi_3 - 1, 2) - 2687)*(350*xi_2*std::pow(xi_3 - 1, 4) + 420*std::pow(-xi_3 + 1, 2)*std::pow(-2*xi_2 - xi_3 + 1, 3) - 1155*(-xi_3 + 1)*std::pow(-2*xi_2 - xi_3 + 1, 4) + 180*std::pow(xi_3 - 1, 5) + 70*std::pow(xi_3 - 1, 4)*(4*xi_2 + 2*xi_3 - 2) - 350*std::pow(xi_3 - 1, 3)*std::pow(-2*xi_2 - xi_3 + 1, 2) + 630*std::pow(xi_3 - 1, 2)*std::pow(-2*xi_2 - xi_3 + 1, 3) - 105*(2*xi_3 - 2)*std::pow(-2*xi_2 - xi_3 + 1, 4) - 231*std::pow(-2*xi_2 - xi_3 + 1, 5))/(xi_3 - 1) - 1/256*(5848*xi_3 + 4845*std::pow(2*xi_3 - 1, 4) + 11628*std::pow(2*xi_3 - 1, 3) + 9486*std::pow(2*xi_3 - 1, 2) - 2687)*(70*xi_2*std::pow(xi_3 - 1, 5) - 105*std::pow(-xi_3 + 1, 2)*std::pow(-2*xi_2 - xi_3 + 1, 4) + 231*(-xi_3 + 1)*std::pow(-2*xi_2 - xi_3 + 1, 5) + 30*std::pow(xi_3 - 1, 6) + 70*std::pow(xi_3 - 1, 4)*std::pow(-2*xi_2 - xi_3 + 1, 2) + 210*std::pow(xi_3 - 1, 3)*std::pow(-2*xi_2 - xi_3 + 1, 3))/std::pow(xi_3 - 1, 2);
  171 => -(9576*xi_3 + 3420*std::pow(2*xi_3 - 1, 2) - 3204)*(60*xi_2*std::pow(xi_3 - 1, 6) + 35*std::pow(xi_3 - 1, 7) - 135*std::pow(xi_3 - 1, 5)*std::pow(2*xi_2 + xi_3 - 1, 2) - 180*std::pow(xi_3 - 1, 4)*std::pow(2*xi_2 + xi_3 - 1, 3) + 495*std::pow(xi_3 - 1, 3)*std::pow(2*xi_2 + xi_3 - 1, 4) + 198*std::pow(xi_3 - 1, 2)*std::pow(2*xi_2 + xi_3 - 1, 5) - 429*(xi_3 - 1)*std::pow(2*xi_2 + xi_3 - 1, 6))/(64*xi_3 - 64) - (1584*xi_3 + 570*std::pow(2*xi_3 - 1, 3) + 1197*std::pow(2*xi_3 - 1, 2) - 631)*(360*xi_2*std::pow(xi_3 - 1, 5) + 245*std::pow(xi_3 - 1, 6) - 135*std::pow(xi_3 - 1, 5)*(4*xi_2 + 2*xi_3 - 2) - 1215*std::pow(xi_3 - 1, 4)*std::pow(2*xi_2 + xi_3 - 1, 2) + 1260*std::pow(xi_3 - 1, 3)*std::pow(2*xi_2 + xi_3 - 1, 3) + 2475*std::pow(xi_3 - 1, 2)*std::pow(2*xi_2 + xi_3 - 1, 4) - 2574*(xi_3 - 1)*std::pow(2*xi_2 + xi_3 - 1, 5) + 198*(2*xi_3 - 2)*std::pow(2*xi_2 + xi_3 - 1, 5) - 429*std::pow(2*xi_2 + xi_3 - 1, 6))/(64*xi_3 - 64) + 64*(1584*xi_3 + 570*std::pow(2*xi_3 - 1, 3) + 1197*std::pow(2*xi_3 - 1, 2) - 631)*(60*xi_2*std::pow(xi_3 - 1, 6) + 35*std::pow(xi_3 - 1, 7) - 135*std::pow(xi_3 - 1, 5)*std::pow(2*xi_2 + xi_3 - 1, 2) - 180*std::pow(xi_3 - 1, 4)*std::pow(2*xi_2 + xi_3 - 1, 3) + 495*std::pow(xi_3 - 1, 3)*std::pow(2*xi_2 + xi_3 - 1, 4) + 198*std::pow(xi_3 - 1, 2)*std::pow(2*xi_2 + xi_3 - 1, 5) - 429*(xi_3 - 1)*std::pow(2*xi_2 + xi_3 - 1, 6))/std::pow(64*xi_3 - 64, 2);
  172 => -(760*xi_3 - 76)*(630*xi_2*std::pow(xi_3 - 1, 7) + 280*std::pow(xi_3 - 1, 8) + 945*std::pow(xi_3 - 1, 6)*std::pow(2*xi_2 + xi_3 - 1, 2) - 3465*std::pow(xi_3 - 1, 5)*std::pow(2*xi_2 + xi_3 - 1, 3) - 3465*std::pow(xi_3 - 1, 4)*std::pow(2*xi_2 + xi_3 - 1, 4) + 9009*std::pow(xi_3 - 1, 3)*std::pow(2*xi_2 + xi_3 - 1, 5) + 3003*std::pow(xi_3 - 1, 2)*std::pow(2*xi_2 + xi_3 - 1, 6) - 6435*(xi_3 - 1)*std::pow(2*xi_2 + xi_3 - 1, 7))/(256*xi_3 - 256) - (304*xi_3 + 95*std::pow(2*xi_3 - 1, 2) - 93)*(4410*xi_2*std::pow(xi_3 - 1, 6) + 2240*std::pow(xi_3 - 1, 7) + 945*std::pow(xi_3 - 1, 6)*(4*xi_2 + 2*xi_3 - 2) - 4725*std::pow(xi_3 - 1, 5)*std::pow(2*xi_2 + xi_3 - 1, 2) - 31185*std::pow(xi_3 - 1, 4)*std::pow(2*xi_2 + xi_3 - 1, 3) + 31185*std::pow(xi_3 - 1, 3)*std::pow(2*xi_2 + xi_3 - 1, 4) + 45045*std::pow(xi_3 - 1, 2)*std::pow(2*xi_2 + xi_3 - 1, 5) - 45045*(xi_3 - 1)*std::pow(2*xi_2 + xi_3 - 1, 6) + 3003*(2*xi_3 - 2)*std::pow(2*xi_2 + xi_3 - 1, 6) - 6435*std::pow(2*xi_2 + xi_3 - 1, 7))/(256*xi_3 - 256) + 256*(304*xi_3 + 95*std::pow(2*xi_3 - 1, 2) - 93)*(630*xi_2*std::pow(xi_3 - 1, 7) + 280*std::pow(xi_3 - 1, 8) + 945*std::pow(xi_3 - 1, 6)*std::pow(2*xi_2 + xi_3 - 1, 2) - 3465*std::pow(xi_3 - 1, 5)*std::pow(2*xi_2 + xi_3 - 1, 3) - 3465*std::pow(xi_3 - 1, 4)*std::pow(2*xi_2 + xi_3 - 1, 4) + 9009*std::pow(xi_3 - 1, 3)*std::pow(2*xi_2 + xi_3 - 1, 5) + 3003*std::pow(xi_3 - 1, 2)*std::pow(2*xi_2 + xi_3 - 1, 6) - 6435*(xi_3 - 1)*std::pow(2*xi_2 + xi_3 - 1, 7))/std::pow(256*xi_3 - 256, 2);
  173 => (175/2)*xi_2*std::pow(xi_3 - 1, 7) - 1925/8*std::pow(-xi_3 + 1, 6)*std::pow(2*xi_2 + xi_3 - 1, 2) + (1925/4)*std::pow(-xi_3 + 1, 5)*std::pow(2*xi_2 + xi_3 - 1, 3) - 25025/8*std::pow(-xi_3 + 1, 2)*std::pow(2*xi_2 + xi_3 - 1, 6) + (3575/4)*(-xi_3 + 1)*std::pow(2*xi_2 + xi_3 - 1, 7) + (1575/32)*std::pow(xi_3 - 1, 8) + (25025/16)*std::pow(xi_3 - 1, 4)*std::pow(2*xi_2 + xi_3 - 1, 4) + (5005/4)*std::pow(xi_3 - 1, 3)*std::pow(2*xi_2 + xi_3 - 1, 5) + (1/128)*(20*xi_3 - 1)*(3920*xi_2*std::pow(xi_3 - 1, 6) - 1540*std::pow(-xi_3 + 1, 6)*(4*xi_2 + 2*xi_3 - 2) + 18480*std::pow(-xi_3 + 1, 5)*std::pow(2*xi_2 + xi_3 - 1, 2) - 15400*std::pow(-xi_3 + 1, 4)*std::pow(2*xi_2 + xi_3 - 1, 3) - 120120*std::pow(-xi_3 + 1, 2)*std::pow(2*xi_2 + xi_3 - 1, 5) + 40040*(-xi_3 + 1)*std::pow(2*xi_2 + xi_3 - 1, 6) + 2520*std::pow(xi_3 - 1, 7) + 40040*std::pow(xi_3 - 1, 4)*std::pow(2*xi_2 + xi_3 - 1, 3) + 80080*std::pow(xi_3 - 1, 3)*std::pow(2*xi_2 + xi_3 - 1, 4) + 24024*std::pow(xi_3 - 1, 2)*std::pow(2*xi_2 + xi_3 - 1, 5) - 20020*(2*xi_3 - 2)*std::pow(2*xi_2 + xi_3 - 1, 6) + 91520*std::pow(2*xi_2 + xi_3 - 1, 7)) + (60775/32)*std::pow(2*xi_2 + xi_3 - 1, 8);
  174 => (1/256)*(12474*xi_2*std::pow(xi_3 - 1, 8) + 72072*std::pow(-xi_3 + 1, 6)*std::pow(-2*xi_2 - xi_3 + 1, 3) - 162162*std::pow(-xi_3 + 1, 5)*std::pow(-2*xi_2 - xi_3 + 1, 4) - 270270*std::pow(-xi_3 + 1, 4)*std::pow(-2*xi_2 - xi_3 + 1, 5) + 175032*std::pow(-xi_3 + 1, 2)*std::pow(-2*xi_2 - xi_3 + 1, 7) - 415701*(-xi_3 + 1)*std::pow(-2*xi_2 - xi_3 + 1, 8) + 6300*std::pow(xi_3 - 1, 9) + 2772*std::pow(xi_3 - 1, 8)*(4*xi_2 + 2*xi_3 - 2) - 13860*std::pow(xi_3 - 1, 7)*std::pow(-2*xi_2 - xi_3 + 1, 2) + 84084*std::pow(xi_3 - 1, 6)*std::pow(-2*xi_2 - xi_3 + 1, 3) - 216216*std::pow(xi_3 - 1, 4)*std::pow(-2*xi_2 - xi_3 + 1, 5) - 468468*std::pow(xi_3 - 1, 3)*std::pow(-2*xi_2 - xi_3 + 1, 6) + 262548*std::pow(xi_3 - 1, 2)*std::pow(-2*xi_2 - xi_3 + 1, 7) - 21879*(2*xi_3 - 2)*std::pow(-2*xi_2 - xi_3 + 1, 8) - 46189*std::pow(-2*xi_2 - xi_3 + 1, 9))/(xi_3 - 1) - 1/256*(1386*xi_2*std::pow(xi_3 - 1, 9) - 18018*std::pow(-xi_3 + 1, 6)*std::pow(-2*xi_2 - xi_3 + 1, 4) + 54054*std::pow(-xi_3 + 1, 5)*std::pow(-2*xi_2 - xi_3 + 1, 5) - 21879*std::pow(-xi_3 + 1, 2)*std::pow(-2*xi_2 - xi_3 + 1, 8) + 46189*(-xi_3 + 1)*std::pow(-2*xi_2 - xi_3 + 1, 9) + 630*std::pow(xi_3 - 1, 10) + 2772*std::pow(xi_3 - 1, 8)*std::pow(-2*xi_2 - xi_3 + 1, 2) + 12012*std::pow(xi_3 - 1, 7)*std::pow(-2*xi_2 - xi_3 + 1, 3) + 36036*std::pow(xi_3 - 1, 4)*std::pow(-2*xi_2 - xi_3 + 1, 6) + 87516*std::pow(xi_3 - 1, 3)*std::pow(-2*xi_2 - xi_3 + 1, 7))/std::pow(xi_3 - 1, 2);
  175 => -91/8*xi_3 + (62985/128)*std::pow(2*xi_3 - 1, 8) + (12597/16)*std::pow(2*xi_3 - 1, 7) - 4641/32*std::pow(2*xi_3 - 1, 6) - 10829/16*std::pow(2*xi_3 - 1, 5) - 8645/64*std::pow(2*xi_3 - 1, 4) + (2275/16)*std::pow(2*xi_3 - 1, 3) + (1183/32)*std::pow(2*xi_3 - 1, 2) + (1/128)*(2*xi_1 + xi_2 + xi_3 - 1)*(37856*xi_3 + 1007760*std::pow(2*xi_3 - 1, 7) + 1410864*std::pow(2*xi_3 - 1, 6) - 222768*std::pow(2*xi_3 - 1, 5) - 866320*std::pow(2*xi_3 - 1, 4) - 138320*std::pow(2*xi_3 - 1, 3) + 109200*std::pow(2*xi_3 - 1, 2) - 20384) + 609/128;
  176 => (1/16)*(5*xi_2 + xi_3 - 1)*(2*xi_1 + xi_2 + xi_3 - 1)*(-840*xi_3 + 135660*std::pow(2*xi_3 - 1, 6) + 244188*std::pow(2*xi_3 - 1, 5) + 85680*std::pow(2*xi_3 - 1, 4) - 52360*std::pow(2*xi_3 - 1, 3) - 28980*std::pow(2*xi_3 - 1, 2) + 1036) + (1/16)*(5*xi_2 + xi_3 - 1)*(616*xi_3 + 9690*std::pow(2*xi_3 - 1, 7) + 20349*std::pow(2*xi_3 - 1, 6) + 8568*std::pow(2*xi_3 - 1, 5) - 6545*std::pow(2*xi_3 - 1, 4) - 4830*std::pow(2*xi_3 - 1, 3) - 105*std::pow(2*xi_3 - 1, 2) - 287) + (1/16)*(2*xi_1 + xi_2 + xi_3 - 1)*(616*xi_3 + 9690*std::pow(2*xi_3 - 1, 7) + 20349*std::pow(2*xi_3 - 1, 6) + 8568*std::pow(2*xi_3 - 1, 5) - 6545*std::pow(2*xi_3 - 1, 4) - 4830*std::pow(2*xi_3 - 1, 3) - 105*std::pow(2*xi_3 - 1, 2) - 287);
  177 => -(36*xi_2*std::pow(xi_3 - 1, 2) + 17*std::pow(xi_3 - 1, 3) - 21*(xi_3 - 1)*std::pow(2*xi_2 + xi_3 - 1, 2))*(2*xi_1 + xi_2 + xi_3 - 1)*(-9960*xi_3 + 58140*std::pow(2*xi_3 - 1, 5) + 116280*std::pow(2*xi_3 - 1, 4) + 67320*std::pow(2*xi_3 - 1, 3) + 4080*std::pow(2*xi_3 - 1, 2) + 4380)/(32*xi_3 - 32) - (36*xi_2*std::pow(xi_3 - 1, 2) + 17*std::pow(xi_3 - 1, 3) - 21*(xi_3 - 1)*std::pow(2*xi_2 + xi_3 - 1, 2))*(-600*xi_3 + 4845*std::pow(2*xi_3 - 1, 6) + 11628*std::pow(2*xi_3 - 1, 5) + 8415*std::pow(2*xi_3 - 1, 4) + 680*std::pow(2*xi_3 - 1, 3) - 1245*std::pow(2*xi_3 - 1, 2) + 301)/(32*xi_3 - 32) - (2*xi_1 + xi_2 + xi_3 - 1)*(36*xi_2*(2*xi_3 - 2) + 51*std::pow(xi_3 - 1, 2) - 21*(xi_3 - 1)*(4*xi_2 + 2*xi_3 - 2) - 21*std::pow(2*xi_2 + xi_3 - 1, 2))*(-600*xi_3 + 4845*std::pow(2*xi_3 - 1, 6) + 11628*std::pow(2*xi_3 - 1, 5) + 8415*std::pow(2*xi_3 - 1, 4) + 680*std::pow(2*xi_3 - 1, 3) - 1245*std::pow(2*xi_3 - 1, 2) + 301)/(32*xi_3 - 32) + 32*(36*xi_2*std::pow(xi_3 - 1, 2) + 17*std::pow(xi_3 - 1, 3) - 21*(xi_3 - 1)*std::pow(2*xi_2 + xi_3 - 1, 2))*(2*xi_1 + xi_2 + xi_3 - 1)*(-600*xi_3 + 4845*std::pow(2*xi_3 - 1, 6) + 11628*std::pow(2*xi_3 - 1, 5) + 8415*std::pow(2*xi_3 - 1, 4) + 680*std::pow(2*xi_3 - 1, 3) - 1245*std::pow(2*xi_3 - 1, 2) + 301)/std::pow(32*xi_3 - 32, 2);
  178 => (1/8)*(6*std::pow(xi_3 - 1, 2) - 21*(xi_3 - 1)*(4*xi_2 + 2*xi_3 - 2) + 42*std::pow(2*xi_2 + xi_3 - 1, 2))*(2*xi_1 + xi_2 + xi_3 - 1)*(-20*xi_3 + 1938*std::pow(2*xi_3 - 1, 5) + 4845*std::pow(2*xi_3 - 1, 4) + 4080*std::pow(2*xi_3 - 1, 3) + 1190*std::pow(2*xi_3 - 1, 2) - 21) + (1/8)*(2*std::pow(xi_3 - 1, 3) - 21*(xi_3 - 1)*std::pow(2*xi_2 + xi_3 - 1, 2) + 21*std::pow(2*xi_2 + xi_3 - 1, 3))*(2*xi_1 + xi_2 + xi_3 - 1)*(9520*xi_3 + 19380*std::pow(2*xi_3 - 1, 4) + 38760*std::pow(2*xi_3 - 1, 3) + 24480*std::pow(2*xi_3 - 1, 2) - 4780) + (1/8)*(2*std::pow(xi_3 - 1, 3) - 21*(xi_3 - 1)*std::pow(2*xi_2 + xi_3 - 1, 2) + 21*std::pow(2*xi_2 + xi_3 - 1, 3))*(-20*xi_3 + 1938*std::pow(2*xi_3 - 1, 5) + 4845*std::pow(2*xi_3 - 1, 4) + 4080*std::pow(2*xi_3 - 1, 3) + 1190*std::pow(2*xi_3 - 1, 2) - 21);
  179 => (1/128)*(2*xi_1 + xi_2 + xi_3 - 1)*(75888*xi_3 + 38760*std::pow(2*xi_3 - 1, 3) + 69768*std::pow(2*xi_3 - 1, 2) - 32096)*(88*xi_2*std::pow(xi_3 - 1, 3) + 41*std::pow(xi_3 - 1, 4) - 18*std::pow(xi_3 - 1, 2)*std::pow(2*xi_2 + xi_3 - 1, 2) - 180*(xi_3 - 1)*std::pow(2*xi_2 + xi_3 - 1, 3) + 165*std::pow(2*xi_2 + xi_3 - 1, 4)) + (1/128)*(2*xi_1 + xi_2 + xi_3 - 1)*(5848*xi_3 + 4845*std::pow(2*xi_3 - 1, 4) + 11628*std::pow(2*xi_3 - 1, 3) + 9486*std::pow(2*xi_3 - 1, 2) - 2687)*(264*xi_2*std::pow(xi_3 - 1, 2) + 164*std::pow(xi_3 - 1, 3) - 18*std::pow(xi_3 - 1, 2)*(4*xi_2 + 2*xi_3 - 2) - 540*(xi_3 - 1)*std::pow(2*xi_2 + xi_3 - 1, 2) - 18*(2*xi_3 - 2)*std::pow(2*xi_2 + xi_3 - 1, 2) + 480*std::pow(2*xi_2 + xi_3 - 1, 3)) + (1/128)*(5848*xi_3 + 4845*std::pow(2*xi_3 - 1, 4) + 11628*std::pow(2*xi_3 - 1, 3) + 9486*std::pow(2*xi_3 - 1, 2) - 2687)*(88*xi_2*std::pow(xi_3 - 1, 3) + 41*std::pow(xi_3 - 1, 4) - 18*std::pow(xi_3 - 1, 2)*std::pow(2*xi_2 + xi_3 - 1, 2) - 180*(xi_3 - 1)*std::pow(2*xi_2 + xi_3 - 1, 3) + 165*std::pow(2*xi_2 + xi_3 - 1, 4));
  180 => (1/128)*(9576*xi_3 + 3420*std::pow(2*xi_3 - 1, 2) - 3204)*(2*xi_1 + xi_2 + xi_3 - 1)*(-90*xi_2*std::pow(xi_3 - 1, 5) - 70*std::pow(-xi_3 + 1, 6) - 1485*std::pow(-xi_3 + 1, 2)*std::pow(-2*xi_2 - xi_3 + 1, 4) + 1287*(-xi_3 + 1)*std::pow(-2*xi_2 - xi_3 + 1, 5) + 630*std::pow(xi_3 - 1, 4)*std::pow(-2*xi_2 - xi_3 + 1, 2) + 330*std::pow(xi_3 - 1, 3)*std::pow(-2*xi_2 - xi_3 + 1, 3))/(xi_3 - 1) + (1/128)*(2*xi_1 + xi_2 + xi_3 - 1)*(1584*xi_3 + 570*std::pow(2*xi_3 - 1, 3) + 1197*std::pow(2*xi_3 - 1, 2) - 631)*(-450*xi_2*std::pow(xi_3 - 1, 4) + 420*std::pow(-xi_3 + 1, 5) + 5940*std::pow(-xi_3 + 1, 2)*std::pow(-2*xi_2 - xi_3 + 1, 3) - 6435*(-xi_3 + 1)*std::pow(-2*xi_2 - xi_3 + 1, 4) + 630*std::pow(xi_3 - 1, 4)*(4*xi_2 + 2*xi_3 - 2) + 1530*std::pow(xi_3 - 1, 3)*std::pow(-2*xi_2 - xi_3 + 1, 2) + 990*std::pow(xi_3 - 1, 2)*std::pow(-2*xi_2 - xi_3 + 1, 3) - 1485*(2*xi_3 - 2)*std::pow(-2*xi_2 - xi_3 + 1, 4) - 1287*std::pow(-2*xi_2 - xi_3 + 1, 5))/(xi_3 - 1) + (1/128)*(1584*xi_3 + 570*std::pow(2*xi_3 - 1, 3) + 1197*std::pow(2*xi_3 - 1, 2) - 631)*(-90*xi_2*std::pow(xi_3 - 1, 5) - 70*std::pow(-xi_3 + 1, 6) - 1485*std::pow(-xi_3 + 1, 2)*std::pow(-2*xi_2 - xi_3 + 1, 4) + 1287*(-xi_3 + 1)*std::pow(-2*xi_2 - xi_3 + 1, 5) + 630*std::pow(xi_3 - 1, 4)*std::pow(-2*xi_2 - xi_3 + 1, 2) + 330*std::pow(xi_3 - 1, 3)*std::pow(-2*xi_2 - xi_3 + 1, 3))/(xi_3 - 1) - 1/128*(2*xi_1 + xi_2 + xi_3 - 1)*(1584*xi_3 + 570*std::pow(2*xi_3 - 1, 3) + 1197*std::pow(2*xi_3 - 1, 2) - 631)*(-90*xi_2*std::pow(xi_3 - 1, 5) - 70*std::pow(-xi_3 + 1, 6) - 1485*std::pow(-xi_3 + 1, 2)*std::pow(-2*xi_2 - xi_3 + 1, 4) + 1287*(-xi_3 + 1)*std::pow(-2*xi_2 - xi_3 + 1, 5) + 630*std::pow(xi_3 - 1, 4)*std::pow(-2*xi_2 - xi_3 + 1, 2) + 330*std::pow(xi_3 - 1, 3)*std::pow(-2*xi_2 - xi_3 + 1, 3))/std::pow(xi_3 - 1, 2);
  181 => -(760*xi_3 - 76)*(2*xi_1 + xi_2 + xi_3 - 1)*(780*xi_2*std::pow(xi_3 - 1, 6) + 365*std::pow(xi_3 - 1, 7) + 165*std::pow(xi_3 - 1, 5)*std::pow(2*xi_2 + xi_3 - 1, 2) - 3740*std::pow(xi_3 - 1, 4)*std::pow(2*xi_2 + xi_3 - 1, 3) + 2145*std::pow(xi_3 - 1, 3)*std::pow(2*xi_2 + xi_3 - 1, 4) + 6006*std::pow(xi_3 - 1, 2)*std::pow(2*xi_2 + xi_3 - 1, 5) - 5005*(xi_3 - 1)*std::pow(2*xi_2 + xi_3 - 1, 6))/(128*xi_3 - 128) - (304*xi_3 + 95*std::pow(2*xi_3 - 1, 2) - 93)*(2*xi_1 + xi_2 + xi_3 - 1)*(4680*xi_2*std::pow(xi_3 - 1, 5) + 2555*std::pow(xi_3 - 1, 6) + 165*std::pow(xi_3 - 1, 5)*(4*xi_2 + 2*xi_3 - 2) - 10395*std::pow(xi_3 - 1, 4)*std::pow(2*xi_2 + xi_3 - 1, 2) - 6380*std::pow(xi_3 - 1, 3)*std::pow(2*xi_2 + xi_3 - 1, 3) + 36465*std::pow(xi_3 - 1, 2)*std::pow(2*xi_2 + xi_3 - 1, 4) - 30030*(xi_3 - 1)*std::pow(2*xi_2 + xi_3 - 1, 5) + 6006*(2*xi_3 - 2)*std::pow(2*xi_2 + xi_3 - 1, 5) - 5005*std::pow(2*xi_2 + xi_3 - 1, 6))/(128*xi_3 - 128) - (304*xi_3 + 95*std::pow(2*xi_3 - 1, 2) - 93)*(780*xi_2*std::pow(xi_3 - 1, 6) + 365*std::pow(xi_3 - 1, 7) + 165*std::pow(xi_3 - 1, 5)*std::pow(2*xi_2 + xi_3 - 1, 2) - 3740*std::pow(xi_3 - 1, 4)*std::pow(2*xi_2 + xi_3 - 1, 3) + 2145*std::pow(xi_3 - 1, 3)*std::pow(2*xi_2 + xi_3 - 1, 4) + 6006*std::pow(xi_3 - 1, 2)*std::pow(2*xi_2 + xi_3 - 1, 5) - 5005*(xi_3 - 1)*std::pow(2*xi_2 + xi_3 - 1, 6))/(128*xi_3 - 128) + 128*(304*xi_3 + 95*std::pow(2*xi_3 - 1, 2) - 93)*(2*xi_1 + xi_2 + xi_3 - 1)*(780*xi_2*std::pow(xi_3 - 1, 6) + 365*std::pow(xi_3 - 1, 7) + 165*std::pow(xi_3 - 1, 5)*std::pow(2*xi_2 + xi_3 - 1, 2) - 3740*std::pow(xi_3 - 1, 4)*std::pow(2*xi_2 + xi_3 - 1, 3) + 2145*std::pow(xi_3 - 1, 3)*std::pow(2*xi_2 + xi_3 - 1, 4) + 6006*std::pow(xi_3 - 1, 2)*std::pow(2*xi_2 + xi_3 - 1, 5) - 5005*(xi_3 - 1)*std::pow(2*xi_2 + xi_3 - 1, 6))/std::pow(128*xi_3 - 128, 2);
  182 => (1/32)*(20*xi_3 - 1)*(2*xi_1 + xi_2 + xi_3 - 1)*(1078*xi_2*std::pow(xi_3 - 1, 6) - 924*std::pow(-xi_3 + 1, 6)*(4*xi_2 + 2*xi_3 - 2) + 5544*std::pow(-xi_3 + 1, 5)*std::pow(-2*xi_2 - xi_3 + 1, 2) + 36036*std::pow(-xi_3 + 1, 2)*std::pow(-2*xi_2 - xi_3 + 1, 5) - 34034*(-xi_3 + 1)*std::pow(-2*xi_2 - xi_3 + 1, 6) + 784*std::pow(xi_3 - 1, 7) - 20020*std::pow(xi_3 - 1, 4)*std::pow(-2*xi_2 - xi_3 + 1, 3) + 5005*std::pow(xi_3 - 1, 3)*std::pow(-2*xi_2 - xi_3 + 1, 4) + 9009*std::pow(xi_3 - 1, 2)*std::pow(-2*xi_2 - xi_3 + 1, 5) - 6006*(2*xi_3 - 2)*std::pow(-2*xi_2 - xi_3 + 1, 6) - 4862*std::pow(-2*xi_2 - xi_3 + 1, 7))/(xi_3 - 1) + (1/32)*(20*xi_3 - 1)*(154*xi_2*std::pow(xi_3 - 1, 7) - 924*std::pow(-xi_3 + 1, 6)*std::pow(-2*xi_2 - xi_3 + 1, 2) - 6006*std::pow(-xi_3 + 1, 2)*std::pow(-2*xi_2 - xi_3 + 1, 6) + 4862*(-xi_3 + 1)*std::pow(-2*xi_2 - xi_3 + 1, 7) + 98*std::pow(xi_3 - 1, 8) + 5005*std::pow(xi_3 - 1, 4)*std::pow(-2*xi_2 - xi_3 + 1, 4) + 3003*std::pow(xi_3 - 1, 3)*std::pow(-2*xi_2 - xi_3 + 1, 5))/(xi_3 - 1) + (5/8)*(2*xi_1 + xi_2 + xi_3 - 1)*(154*xi_2*std::pow(xi_3 - 1, 7) - 924*std::pow(-xi_3 + 1, 6)*std::pow(-2*xi_2 - xi_3 + 1, 2) - 6006*std::pow(-xi_3 + 1, 2)*std::pow(-2*xi_2 - xi_3 + 1, 6) + 4862*(-xi_3 + 1)*std::pow(-2*xi_2 - xi_3 + 1, 7) + 98*std::pow(xi_3 - 1, 8) + 5005*std::pow(xi_3 - 1, 4)*std::pow(-2*xi_2 - xi_3 + 1, 4) + 3003*std::pow(xi_3 - 1, 3)*std::pow(-2*xi_2 - xi_3 + 1, 5))/(xi_3 - 1) - 1/32*(20*xi_3 - 1)*(2*xi_1 + xi_2 + xi_3 - 1)*(154*xi_2*std::pow(xi_3 - 1, 7) - 924*std::pow(-xi_3 + 1, 6)*std::pow(-2*xi_2 - xi_3 + 1, 2) - 6006*std::pow(-xi_3 + 1, 2)*std::pow(-2*xi_2 - xi_3 + 1, 6) + 4862*(-xi_3 + 1)*std::pow(-2*xi_2 - xi_3 + 1, 7) + 98*std::pow(xi_3 - 1, 8) + 5005*std::pow(xi_3 - 1, 4)*std::pow(-2*xi_2 - xi_3 + 1, 4) + 3003*std::pow(xi_3 - 1, 3)*std::pow(-2*xi_2 - xi_3 + 1, 5))/std::pow(xi_3 - 1, 2);
  183 => (105/8)*xi_2*std::pow(xi_3 - 1, 7) + (1729/16)*std::pow(-xi_3 + 1, 5)*std::pow(2*xi_2 + xi_3 - 1, 3) - 7735/32*std::pow(-xi_3 + 1, 2)*std::pow(2*xi_2 + xi_3 - 1, 6) + (5967/16)*(-xi_3 + 1)*std::pow(2*xi_2 + xi_3 - 1, 7) + (791/128)*std::pow(xi_3 - 1, 8) + (273/32)*std::pow(xi_3 - 1, 6)*std::pow(2*xi_2 + xi_3 - 1, 2) + (1365/64)*std::pow(xi_3 - 1, 4)*std::pow(2*xi_2 + xi_3 - 1, 4) + (6279/16)*std::pow(xi_3 - 1, 3)*std::pow(2*xi_2 + xi_3 - 1, 5) + (37791/128)*std::pow(2*xi_2 + xi_3 - 1, 8) + (1/128)*(2*xi_1 + xi_2 + xi_3 - 1)*(11760*xi_2*std::pow(xi_3 - 1, 6) + 41496*std::pow(-xi_3 + 1, 5)*std::pow(2*xi_2 + xi_3 - 1, 2) - 69160*std::pow(-xi_3 + 1, 4)*std::pow(2*xi_2 + xi_3 - 1, 3) - 185640*std::pow(-xi_3 + 1, 2)*std::pow(2*xi_2 + xi_3 - 1, 5) + 334152*(-xi_3 + 1)*std::pow(2*xi_2 + xi_3 - 1, 6) + 6328*std::pow(xi_3 - 1, 7) + 1092*std::pow(xi_3 - 1, 6)*(4*xi_2 + 2*xi_3 - 2) + 6552*std::pow(xi_3 - 1, 5)*std::pow(2*xi_2 + xi_3 - 1, 2) + 10920*std::pow(xi_3 - 1, 4)*std::pow(2*xi_2 + xi_3 - 1, 3) + 262080*std::pow(xi_3 - 1, 3)*std::pow(2*xi_2 + xi_3 - 1, 4) + 150696*std::pow(xi_3 - 1, 2)*std::pow(2*xi_2 + xi_3 - 1, 5) - 30940*(2*xi_3 - 2)*std::pow(2*xi_2 + xi_3 - 1, 6) + 254592*std::pow(2*xi_2 + xi_3 - 1, 7));
  184 => (1/32)*(-std::pow(xi_2 + xi_3 - 1, 2) + 3*std::pow(2*xi_1 + xi_2 + xi_3 - 1, 2))*(-840*xi_3 + 135660*std::pow(2*xi_3 - 1, 6) + 244188*std::pow(2*xi_3 - 1, 5) + 85680*std::pow(2*xi_3 - 1, 4) - 52360*std::pow(2*xi_3 - 1, 3) - 28980*std::pow(2*xi_3 - 1, 2) + 1036) + (1/32)*(12*xi_1 + 4*xi_2 + 4*xi_3 - 4)*(616*xi_3 + 9690*std::pow(2*xi_3 - 1, 7) + 20349*std::pow(2*xi_3 - 1, 6) + 8568*std::pow(2*xi_3 - 1, 5) - 6545*std::pow(2*xi_3 - 1, 4) - 4830*std::pow(2*xi_3 - 1, 3) - 105*std::pow(2*xi_3 - 1, 2) - 287);
  185 => (1/16)*(-std::pow(xi_2 + xi_3 - 1, 2) + 3*std::pow(2*xi_1 + xi_2 + xi_3 - 1, 2))*(7*xi_2 + xi_3 - 1)*(-9960*xi_3 + 58140*std::pow(2*xi_3 - 1, 5) + 116280*std::pow(2*xi_3 - 1, 4) + 67320*std::pow(2*xi_3 - 1, 3) + 4080*std::pow(2*xi_3 - 1, 2) + 4380) + (1/16)*(-std::pow(xi_2 + xi_3 - 1, 2) + 3*std::pow(2*xi_1 + xi_2 + xi_3 - 1, 2))*(-600*xi_3 + 4845*std::pow(2*xi_3 - 1, 6) + 11628*std::pow(2*xi_3 - 1, 5) + 8415*std::pow(2*xi_3 - 1, 4) + 680*std::pow(2*xi_3 - 1, 3) - 1245*std::pow(2*xi_3 - 1, 2) + 301) + (1/16)*(7*xi_2 + xi_3 - 1)*(12*xi_1 + 4*xi_2 + 4*xi_3 - 4)*(-600*xi_3 + 4845*std::pow(2*xi_3 - 1, 6) + 11628*std::pow(2*xi_3 - 1, 5) + 8415*std::pow(2*xi_3 - 1, 4) + 680*std::pow(2*xi_3 - 1, 3) - 1245*std::pow(2*xi_3 - 1, 2) + 301);
  186 => (std::pow(xi_2 + xi_3 - 1, 2) - 3*std::pow(2*xi_1 + xi_2 + xi_3 - 1, 2))*(20*xi_2*std::pow(xi_3 - 1, 2) + 8*std::pow(xi_3 - 1, 3) - 9*(xi_3 - 1)*std::pow(2*xi_2 + xi_3 - 1, 2))*(9520*xi_3 + 19380*std::pow(2*xi_3 - 1, 4) + 38760*std::pow(2*xi_3 - 1, 3) + 24480*std::pow(2*xi_3 - 1, 2) - 4780)/(8*xi_3 - 8) + (std::pow(xi_2 + xi_3 - 1, 2) - 3*std::pow(2*xi_1 + xi_2 + xi_3 - 1, 2))*(20*xi_2*(2*xi_3 - 2) + 24*std::pow(xi_3 - 1, 2) - 9*(xi_3 - 1)*(4*xi_2 + 2*xi_3 - 2) - 9*std::pow(2*xi_2 + xi_3 - 1, 2))*(-20*xi_3 + 1938*std::pow(2*xi_3 - 1, 5) + 4845*std::pow(2*xi_3 - 1, 4) + 4080*std::pow(2*xi_3 - 1, 3) + 1190*std::pow(2*xi_3 - 1, 2) - 21)/(8*xi_3 - 8) + (20*xi_2*std::pow(xi_3 - 1, 2) + 8*std::pow(xi_3 - 1, 3) - 9*(xi_3 - 1)*std::pow(2*xi_2 + xi_3 - 1, 2))*(-12*xi_1 - 4*xi_2 - 4*xi_3 + 4)*(-20*xi_3 + 1938*std::pow(2*xi_3 - 1, 5) + 4845*std::pow(2*xi_3 - 1, 4) + 4080*std::pow(2*xi_3 - 1, 3) + 1190*std::pow(2*xi_3 - 1, 2) - 21)/(8*xi_3 - 8) - 8*(std::pow(xi_2 + xi_3 - 1, 2) - 3*std::pow(2*xi_1 + xi_2 + xi_3 - 1, 2))*(20*xi_2*std::pow(xi_3 - 1, 2) + 8*std::pow(xi_3 - 1, 3) - 9*(xi_3 - 1)*std::pow(2*xi_2 + xi_3 - 1, 2))*(-20*xi_3 + 1938*std::pow(2*xi_3 - 1, 5) + 4845*std::pow(2*xi_3 - 1, 4) + 4080*std::pow(2*xi_3 - 1, 3) + 1190*std::pow(2*xi_3 - 1, 2) - 21)/std::pow(8*xi_3 - 8, 2);
  187 => (1/256)*(-std::pow(xi_2 + xi_3 - 1, 2) + 3*std::pow(2*xi_1 + xi_2 + xi_3 - 1, 2))*(75888*xi_3 + 38760*std::pow(2*xi_3 - 1, 3) + 69768*std::pow(2*xi_3 - 1, 2) - 32096)*(126*xi_2*std::pow(xi_3 - 1, 3) - 225*std::pow(-xi_3 + 1, 2)*std::pow(-2*xi_2 - xi_3 + 1, 2) + 165*(-xi_3 + 1)*std::pow(-2*xi_2 - xi_3 + 1, 3) + 68*std::pow(xi_3 - 1, 4))/(xi_3 - 1) + (1/256)*(-std::pow(xi_2 + xi_3 - 1, 2) + 3*std::pow(2*xi_1 + xi_2 + xi_3 - 1, 2))*(5848*xi_3 + 4845*std::pow(2*xi_3 - 1, 4) + 11628*std::pow(2*xi_3 - 1, 3) + 9486*std::pow(2*xi_3 - 1, 2) - 2687)*(378*xi_2*std::pow(xi_3 - 1, 2) - 225*std::pow(-xi_3 + 1, 2)*(4*xi_2 + 2*xi_3 - 2) - 495*(-xi_3 + 1)*std::pow(-2*xi_2 - xi_3 + 1, 2) + 272*std::pow(xi_3 - 1, 3) - 225*(2*xi_3 - 2)*std::pow(-2*xi_2 - xi_3 + 1, 2) - 165*std::pow(-2*xi_2 - xi_3 + 1, 3))/(xi_3 - 1) + (1/256)*(12*xi_1 + 4*xi_2 + 4*xi_3 - 4)*(126*xi_2*std::pow(xi_3 - 1, 3) - 225*std::pow(-xi_3 + 1, 2)*std::pow(-2*xi_2 - xi_3 + 1, 2) + 165*(-xi_3 + 1)*std::pow(-2*xi_2 - xi_3 + 1, 3) + 68*std::pow(xi_3 - 1, 4))*(5848*xi_3 + 4845*std::pow(2*xi_3 - 1, 4) + 11628*std::pow(2*xi_3 - 1, 3) + 9486*std::pow(2*xi_3 - 1, 2) - 2687)/(xi_3 - 1) - 1/256*(-std::pow(xi_2 + xi_3 - 1, 2) + 3*std::pow(2*xi_1 + xi_2 + xi_3 - 1, 2))*(126*xi_2*std::pow(xi_3 - 1, 3) - 225*std::pow(-xi_3 + 1, 2)*std::pow(-2*xi_2 - xi_3 + 1, 2) + 165*(-xi_3 + 1)*std::pow(-2*xi_2 - xi_3 + 1, 3) + 68*std::pow(xi_3 - 1, 4))*(5848*xi_3 + 4845*std::pow(2*xi_3 - 1, 4) + 11628*std::pow(2*xi_3 - 1, 3) + 9486*std::pow(2*xi_3 - 1, 2) - 2687)/std::pow(xi_3 - 1, 2);
  188 => (1/128)*(-std::pow(xi_2 + xi_3 - 1, 2) + 3*std::pow(2*xi_1 + xi_2 + xi_3 - 1, 2))*(9576*xi_3 + 3420*std::pow(2*xi_3 - 1, 2) - 3204)*(200*xi_2*std::pow(xi_3 - 1, 3) + 71*std::pow(xi_3 - 1, 4) + 330*std::pow(xi_3 - 1, 2)*std::pow(2*xi_2 + xi_3 - 1, 2) - 1100*(xi_3 - 1)*std::pow(2*xi_2 + xi_3 - 1, 3) + 715*std::pow(2*xi_2 + xi_3 - 1, 4)) + (1/128)*(-std::pow(xi_2 + xi_3 - 1, 2) + 3*std::pow(2*xi_1 + xi_2 + xi_3 - 1, 2))*(1584*xi_3 + 570*std::pow(2*xi_3 - 1, 3) + 1197*std::pow(2*xi_3 - 1, 2) - 631)*(600*xi_2*std::pow(xi_3 - 1, 2) + 284*std::pow(xi_3 - 1, 3) + 330*std::pow(xi_3 - 1, 2)*(4*xi_2 + 2*xi_3 - 2) - 3300*(xi_3 - 1)*std::pow(2*xi_2 + xi_3 - 1, 2) + 330*(2*xi_3 - 2)*std::pow(2*xi_2 + xi_3 - 1, 2) + 1760*std::pow(2*xi_2 + xi_3 - 1, 3)) + (1/128)*(12*xi_1 + 4*xi_2 + 4*xi_3 - 4)*(1584*xi_3 + 570*std::pow(2*xi_3 - 1, 3) + 1197*std::pow(2*xi_3 - 1, 2) - 631)*(200*xi_2*std::pow(xi_3 - 1, 3) + 71*std::pow(xi_3 - 1, 4) + 330*std::pow(xi_3 - 1, 2)*std::pow(2*xi_2 + xi_3 - 1, 2) - 1100*(xi_3 - 1)*std::pow(2*xi_2 + xi_3 - 1, 3) + 715*std::pow(2*xi_2 + xi_3 - 1, 4));
  189 => (760*xi_3 - 76)*(std::pow(xi_2 + xi_3 - 1, 2) - 3*std::pow(2*xi_1 + xi_2 + xi_3 - 1, 2))*(770*xi_2*std::pow(xi_3 - 1, 5) + 386*std::pow(xi_3 - 1, 6) - 990*std::pow(xi_3 - 1, 4)*std::pow(2*xi_2 + xi_3 - 1, 2) - 1430*std::pow(xi_3 - 1, 3)*std::pow(2*xi_2 + xi_3 - 1, 3) + 5005*std::pow(xi_3 - 1, 2)*std::pow(2*xi_2 + xi_3 - 1, 4) - 3003*(xi_3 - 1)*std::pow(2*xi_2 + xi_3 - 1, 5))/(128*xi_3 - 128) + (std::pow(xi_2 + xi_3 - 1, 2) - 3*std::pow(2*xi_1 + xi_2 + xi_3 - 1, 2))*(304*xi_3 + 95*std::pow(2*xi_3 - 1, 2) - 93)*(3850*xi_2*std::pow(xi_3 - 1, 4) + 2316*std::pow(xi_3 - 1, 5) - 990*std::pow(xi_3 - 1, 4)*(4*xi_2 + 2*xi_3 - 2) - 8250*std::pow(xi_3 - 1, 3)*std::pow(2*xi_2 + xi_3 - 1, 2) + 15730*std::pow(xi_3 - 1, 2)*std::pow(2*xi_2 + xi_3 - 1, 3) - 15015*(xi_3 - 1)*std::pow(2*xi_2 + xi_3 - 1, 4) + 5005*(2*xi_3 - 2)*std::pow(2*xi_2 + xi_3 - 1, 4) - 3003*std::pow(2*xi_2 + xi_3 - 1, 5))/(128*xi_3 - 128) + (304*xi_3 + 95*std::pow(2*xi_3 - 1, 2) - 93)*(-12*xi_1 - 4*xi_2 - 4*xi_3 + 4)*(770*xi_2*std::pow(xi_3 - 1, 5) + 386*std::pow(xi_3 - 1, 6) - 990*std::pow(xi_3 - 1, 4)*std::pow(2*xi_2 + xi_3 - 1, 2) - 1430*std::pow(xi_3 - 1, 3)*std::pow(2*xi_2 + xi_3 - 1, 3) + 5005*std::pow(xi_3 - 1, 2)*std::pow(2*xi_2 + xi_3 - 1, 4) - 3003*(xi_3 - 1)*std::pow(2*xi_2 + xi_3 - 1, 5))/(128*xi_3 - 128) - 128*(std::pow(xi_2 + xi_3 - 1, 2) - 3*std::pow(2*xi_1 + xi_2 + xi_3 - 1, 2))*(304*xi_3 + 95*std::pow(2*xi_3 - 1, 2) - 93)*(770*xi_2*std::pow(xi_3 - 1, 5) + 386*std::pow(xi_3 - 1, 6) - 990*std::pow(xi_3 - 1, 4)*std::pow(2*xi_2 + xi_3 - 1, 2) - 1430*std::pow(xi_3 - 1, 3)*std::pow(2*xi_2 + xi_3 - 1, 3) + 5005*std::pow(xi_3 - 1, 2)*std::pow(2*xi_2 + xi_3 - 1, 4) - 3003*(xi_3 - 1)*std::pow(2*xi_2 + xi_3 - 1, 5))/std::pow(128*xi_3 - 128, 2);
  190 => (1/32)*(20*xi_3 - 1)*(std::pow(xi_2 + xi_3 - 1, 2) - 3*std::pow(2*xi_1 + xi_2 + xi_3 - 1, 2))*(480*xi_2*std::pow(xi_3 - 1, 4) + 138*std::pow(xi_3 - 1, 5) + 780*std::pow(xi_3 - 1, 4)*(4*xi_2 + 2*xi_3 - 2) - 2340*std::pow(xi_3 - 1, 3)*std::pow(2*xi_2 + xi_3 - 1, 2) - 10920*std::pow(xi_3 - 1, 2)*std::pow(2*xi_2 + xi_3 - 1, 3) + 27300*(xi_3 - 1)*std::pow(2*xi_2 + xi_3 - 1, 4) - 1365*(2*xi_3 - 2)*std::pow(2*xi_2 + xi_3 - 1, 4) - 13104*std::pow(2*xi_2 + xi_3 - 1, 5)) + (1/32)*(20*xi_3 - 1)*(-12*xi_1 - 4*xi_2 - 4*xi_3 + 4)*(96*xi_2*std::pow(xi_3 - 1, 5) + 23*std::pow(xi_3 - 1, 6) + 780*std::pow(xi_3 - 1, 4)*std::pow(2*xi_2 + xi_3 - 1, 2) - 1820*std::pow(xi_3 - 1, 3)*std::pow(2*xi_2 + xi_3 - 1, 3) - 1365*std::pow(xi_3 - 1, 2)*std::pow(2*xi_2 + xi_3 - 1, 4) + 5460*(xi_3 - 1)*std::pow(2*xi_2 + xi_3 - 1, 5) - 3094*std::pow(2*xi_2 + xi_3 - 1, 6)) + (5/8)*(std::pow(xi_2 + xi_3 - 1, 2) - 3*std::pow(2*xi_1 + xi_2 + xi_3 - 1, 2))*(96*xi_2*std::pow(xi_3 - 1, 5) + 23*std::pow(xi_3 - 1, 6) + 780*std::pow(xi_3 - 1, 4)*std::pow(2*xi_2 + xi_3 - 1, 2) - 1820*std::pow(xi_3 - 1, 3)*std::pow(2*xi_2 + xi_3 - 1, 3) - 1365*std::pow(xi_3 - 1, 2)*std::pow(2*xi_2 + xi_3 - 1, 4) + 5460*(xi_3 - 1)*std::pow(2*xi_2 + xi_3 - 1, 5) - 3094*std::pow(2*xi_2 + xi_3 - 1, 6));
  191 => (1/64)*(-std::pow(xi_2 + xi_3 - 1, 2) + 3*std::pow(2*xi_1 + xi_2 + xi_3 - 1, 2))*(6370*xi_2*std::pow(xi_3 - 1, 6) - 819*std::pow(-xi_3 + 1, 6)*(4*xi_2 + 2*xi_3 - 2) + 4914*std::pow(-xi_3 + 1, 5)*std::pow(-2*xi_2 - xi_3 + 1, 2) - 23205*std::pow(-xi_3 + 1, 3)*std::pow(-2*xi_2 - xi_3 + 1, 4) + 125307*std::pow(-xi_3 + 1, 2)*std::pow(-2*xi_2 - xi_3 + 1, 5) - 88179*(-xi_3 + 1)*std::pow(-2*xi_2 - xi_3 + 1, 6) + 3584*std::pow(xi_3 - 1, 7) - 15015*std::pow(xi_3 - 1, 5)*std::pow(-2*xi_2 - xi_3 + 1, 2) - 20475*std::pow(xi_3 - 1, 4)*std::pow(-2*xi_2 - xi_3 + 1, 3) + 45500*std::pow(xi_3 - 1, 3)*std::pow(-2*xi_2 - xi_3 + 1, 4) - 23205*(2*xi_3 - 2)*std::pow(-2*xi_2 - xi_3 + 1, 6) - 12597*std::pow(-2*xi_2 - xi_3 + 1, 7))/(xi_3 - 1) + (1/64)*(12*xi_1 + 4*xi_2 + 4*xi_3 - 4)*(910*xi_2*std::pow(xi_3 - 1, 7) - 819*std::pow(-xi_3 + 1, 6)*std::pow(-2*xi_2 - xi_3 + 1, 2) + 4641*std::pow(-xi_3 + 1, 3)*std::pow(-2*xi_2 - xi_3 + 1, 5) - 23205*std::pow(-xi_3 + 1, 2)*std::pow(-2*xi_2 - xi_3 + 1, 6) + 12597*(-xi_3 + 1)*std::pow(-2*xi_2 - xi_3 + 1, 7) + 448*std::pow(xi_3 - 1, 8) + 5005*std::pow(xi_3 - 1, 5)*std::pow(-2*xi_2 - xi_3 + 1, 3) + 11375*std::pow(xi_3 - 1, 4)*std::pow(-2*xi_2 - xi_3 + 1, 4))/(xi_3 - 1) - 1/64*(-std::pow(xi_2 + xi_3 - 1, 2) + 3*std::pow(2*xi_1 + xi_2 + xi_3 - 1, 2))*(910*xi_2*std::pow(xi_3 - 1, 7) - 819*std::pow(-xi_3 + 1, 6)*std::pow(-2*xi_2 - xi_3 + 1, 2) + 4641*std::pow(-xi_3 + 1, 3)*std::pow(-2*xi_2 - xi_3 + 1, 5) - 23205*std::pow(-xi_3 + 1, 2)*std::pow(-2*xi_2 - xi_3 + 1, 6) + 12597*(-xi_3 + 1)*std::pow(-2*xi_2 - xi_3 + 1, 7) + 448*std::pow(xi_3 - 1, 8) + 5005*std::pow(xi_3 - 1, 5)*std::pow(-2*xi_2 - xi_3 + 1, 3) + 11375*std::pow(xi_3 - 1, 4)*std::pow(-2*xi_2 - xi_3 + 1, 4))/std::pow(xi_3 - 1, 2);
  192 => -(6*xi_1*std::pow(xi_2 + xi_3 - 1, 3) + 3*std::pow(xi_2 + xi_3 - 1, 4) - 5*(xi_2 + xi_3 - 1)*std::pow(2*xi_1 + xi_2 + xi_3 - 1, 3))*(-9960*xi_3 + 58140*std::pow(2*xi_3 - 1, 5) + 116280*std::pow(2*xi_3 - 1, 4) + 67320*std::pow(2*xi_3 - 1, 3) + 4080*std::pow(2*xi_3 - 1, 2) + 4380)/(16*xi_2 + 16*xi_3 - 16) - (18*xi_1*std::pow(xi_2 + xi_3 - 1, 2) + 12*std::pow(xi_2 + xi_3 - 1, 3) - 15*(xi_2 + xi_3 - 1)*std::pow(2*xi_1 + xi_2 + xi_3 - 1, 2) - 5*std::pow(2*xi_1 + xi_2 + xi_3 - 1, 3))*(-600*xi_3 + 4845*std::pow(2*xi_3 - 1, 6) + 11628*std::pow(2*xi_3 - 1, 5) + 8415*std::pow(2*xi_3 - 1, 4) + 680*std::pow(2*xi_3 - 1, 3) - 1245*std::pow(2*xi_3 - 1, 2) + 301)/(16*xi_2 + 16*xi_3 - 16) + 16*(6*xi_1*std::pow(xi_2 + xi_3 - 1, 3) + 3*std::pow(xi_2 + xi_3 - 1, 4) - 5*(xi_2 + xi_3 - 1)*std::pow(2*xi_1 + xi_2 + xi_3 - 1, 3))*(-600*xi_3 + 4845*std::pow(2*xi_3 - 1, 6) + 11628*std::pow(2*xi_3 - 1, 5) + 8415*std::pow(2*xi_3 - 1, 4) + 680*std::pow(2*xi_3 - 1, 3) - 1245*std::pow(2*xi_3 - 1, 2) + 301)/std::pow(16*xi_2 + 16*xi_3 - 16, 2);
  193 => (1/8)*(9*xi_2 + xi_3 - 1)*(6*xi_1*std::pow(xi_2 + xi_3 - 1, 3) + 5*(-xi_2 - xi_3 + 1)*std::pow(2*xi_1 + xi_2 + xi_3 - 1, 3) + 3*std::pow(xi_2 + xi_3 - 1, 4))*(9520*xi_3 + 19380*std::pow(2*xi_3 - 1, 4) + 38760*std::pow(2*xi_3 - 1, 3) + 24480*std::pow(2*xi_3 - 1, 2) - 4780)/(-xi_2 - xi_3 + 1) + (1/8)*(9*xi_2 + xi_3 - 1)*(18*xi_1*std::pow(xi_2 + xi_3 - 1, 2) + 15*(-xi_2 - xi_3 + 1)*std::pow(2*xi_1 + xi_2 + xi_3 - 1, 2) + 12*std::pow(xi_2 + xi_3 - 1, 3) - 5*std::pow(2*xi_1 + xi_2 + xi_3 - 1, 3))*(-20*xi_3 + 1938*std::pow(2*xi_3 - 1, 5) + 4845*std::pow(2*xi_3 - 1, 4) + 4080*std::pow(2*xi_3 - 1, 3) + 1190*std::pow(2*xi_3 - 1, 2) - 21)/(-xi_2 - xi_3 + 1) + (1/8)*(6*xi_1*std::pow(xi_2 + xi_3 - 1, 3) + 5*(-xi_2 - xi_3 + 1)*std::pow(2*xi_1 + xi_2 + xi_3 - 1, 3) + 3*std::pow(xi_2 + xi_3 - 1, 4))*(-20*xi_3 + 1938*std::pow(2*xi_3 - 1, 5) + 4845*std::pow(2*xi_3 - 1, 4) + 4080*std::pow(2*xi_3 - 1, 3) + 1190*std::pow(2*xi_3 - 1, 2) - 21)/(-xi_2 - xi_3 + 1) + (1/8)*(9*xi_2 + xi_3 - 1)*(6*xi_1*std::pow(xi_2 + xi_3 - 1, 3) + 5*(-xi_2 - xi_3 + 1)*std::pow(2*xi_1 + xi_2 + xi_3 - 1, 3) + 3*std::pow(xi_2 + xi_3 - 1, 4))*(-20*xi_3 + 1938*std::pow(2*xi_3 - 1, 5) + 4845*std::pow(2*xi_3 - 1, 4) + 4080*std::pow(2*xi_3 - 1, 3) + 1190*std::pow(2*xi_3 - 1, 2) - 21)/std::pow(-xi_2 - xi_3 + 1, 2);
  194 => (1/128)*(6*xi_1*std::pow(xi_2 + xi_3 - 1, 3) + 5*(-xi_2 - xi_3 + 1)*std::pow(2*xi_1 + xi_2 + xi_3 - 1, 3) + 3*std::pow(xi_2 + xi_3 - 1, 4))*(140*xi_2*std::pow(xi_3 - 1, 2) + 55*(-xi_3 + 1)*std::pow(-2*xi_2 - xi_3 + 1, 2) + 51*std::pow(xi_3 - 1, 3))*(75888*xi_3 + 38760*std::pow(2*xi_3 - 1, 3) + 69768*std::pow(2*xi_3 - 1, 2) - 32096)/((xi_3 - 1)*(xi_2 + xi_3 - 1)) + (1/128)*(6*xi_1*std::pow(xi_2 + xi_3 - 1, 3) + 5*(-xi_2 - xi_3 + 1)*std::pow(2*xi_1 + xi_2 + xi_3 - 1, 3) + 3*std::pow(xi_2 + xi_3 - 1, 4))*(140*xi_2*(2*xi_3 - 2) + 55*(-xi_3 + 1)*(4*xi_2 + 2*xi_3 - 2) + 153*std::pow(xi_3 - 1, 2) - 55*std::pow(-2*xi_2 - xi_3 + 1, 2))*(5848*xi_3 + 4845*std::pow(2*xi_3 - 1, 4) + 11628*std::pow(2*xi_3 - 1, 3) + 9486*std::pow(2*xi_3 - 1, 2) - 2687)/((xi_3 - 1)*(xi_2 + xi_3 - 1)) + (1/128)*(140*xi_2*std::pow(xi_3 - 1, 2) + 55*(-xi_3 + 1)*std::pow(-2*xi_2 - xi_3 + 1, 2) + 51*std::pow(xi_3 - 1, 3))*(18*xi_1*std::pow(xi_2 + xi_3 - 1, 2) + 15*(-xi_2 - xi_3 + 1)*std::pow(2*xi_1 + xi_2 + xi_3 - 1, 2) + 12*std::pow(xi_2 + xi_3 - 1, 3) - 5*std::pow(2*xi_1 + xi_2 + xi_3 - 1, 3))*(5848*xi_3 + 4845*std::pow(2*xi_3 - 1, 4) + 11628*std::pow(2*xi_3 - 1, 3) + 9486*std::pow(2*xi_3 - 1, 2) - 2687)/((xi_3 - 1)*(xi_2 + xi_3 - 1)) - 1/128*(6*xi_1*std::pow(xi_2 + xi_3 - 1, 3) + 5*(-xi_2 - xi_3 + 1)*std::pow(2*xi_1 + xi_2 + xi_3 - 1, 3) + 3*std::pow(xi_2 + xi_3 - 1, 4))*(140*xi_2*std::pow(xi_3 - 1, 2) + 55*(-xi_3 + 1)*std::pow(-2*xi_2 - xi_3 + 1, 2) + 51*std::pow(xi_3 - 1, 3))*(5848*xi_3 + 4845*std::pow(2*xi_3 - 1, 4) + 11628*std::pow(2*xi_3 - 1, 3) + 9486*std::pow(2*xi_3 - 1, 2) - 2687)/((xi_3 - 1)*std::pow(xi_2 + xi_3 - 1, 2)) - 1/128*(6*xi_1*std::pow(xi_2 + xi_3 - 1, 3) + 5*(-xi_2 - xi_3 + 1)*std::pow(2*xi_1 + xi_2 + xi_3 - 1, 3) + 3*std::pow(xi_2 + xi_3 - 1, 4))*(140*xi_2*std::pow(xi_3 - 1, 2) + 55*(-xi_3 + 1)*std::pow(-2*xi_2 - xi_3 + 1, 2) + 51*std::pow(xi_3 - 1, 3))*(5848*xi_3 + 4845*std::pow(2*xi_3 - 1, 4) + 11628*std::pow(2*xi_3 - 1, 3) + 9486*std::pow(2*xi_3 - 1, 2) - 2687)/(std::pow(xi_3 - 1, 2)*(xi_2 + xi_3 - 1));
  195 => -(9576*xi_3 + 3420*std::pow(2*xi_3 - 1, 2) - 3204)*(6*xi_1*std::pow(xi_2 + xi_3 - 1, 3) + 3*std::pow(xi_2 + xi_3 - 1, 4) - 5*(xi_2 + xi_3 - 1)*std::pow(2*xi_1 + xi_2 + xi_3 - 1, 3))*(198*xi_2*std::pow(xi_3 - 1, 2) + 92*std::pow(xi_3 - 1, 3) - 231*(xi_3 - 1)*std::pow(2*xi_2 + xi_3 - 1, 2) + 143*std::pow(2*xi_2 + xi_3 - 1, 3))/(32*xi_2 + 32*xi_3 - 32) - (6*xi_1*std::pow(xi_2 + xi_3 - 1, 3) + 3*std::pow(xi_2 + xi_3 - 1, 4) - 5*(xi_2 + xi_3 - 1)*std::pow(2*xi_1 + xi_2 + xi_3 - 1, 3))*(1584*xi_3 + 570*std::pow(2*xi_3 - 1, 3) + 1197*std::pow(2*xi_3 - 1, 2) - 631)*(198*xi_2*(2*xi_3 - 2) + 276*std::pow(xi_3 - 1, 2) - 231*(xi_3 - 1)*(4*xi_2 + 2*xi_3 - 2) + 198*std::pow(2*xi_2 + xi_3 - 1, 2))/(32*xi_2 + 32*xi_3 - 32) - (1584*xi_3 + 570*std::pow(2*xi_3 - 1, 3) + 1197*std::pow(2*xi_3 - 1, 2) - 631)*(18*xi_1*std::pow(xi_2 + xi_3 - 1, 2) + 12*std::pow(xi_2 + xi_3 - 1, 3) - 15*(xi_2 + xi_3 - 1)*std::pow(2*xi_1 + xi_2 + xi_3 - 1, 2) - 5*std::pow(2*xi_1 + xi_2 + xi_3 - 1, 3))*(198*xi_2*std::pow(xi_3 - 1, 2) + 92*std::pow(xi_3 - 1, 3) - 231*(xi_3 - 1)*std::pow(2*xi_2 + xi_3 - 1, 2) + 143*std::pow(2*xi_2 + xi_3 - 1, 3))/(32*xi_2 + 32*xi_3 - 32) + 32*(6*xi_1*std::pow(xi_2 + xi_3 - 1, 3) + 3*std::pow(xi_2 + xi_3 - 1, 4) - 5*(xi_2 + xi_3 - 1)*std::pow(2*xi_1 + xi_2 + xi_3 - 1, 3))*(1584*xi_3 + 570*std::pow(2*xi_3 - 1, 3) + 1197*std::pow(2*xi_3 - 1, 2) - 631)*(198*xi_2*std::pow(xi_3 - 1, 2) + 92*std::pow(xi_3 - 1, 3) - 231*(xi_3 - 1)*std::pow(2*xi_2 + xi_3 - 1, 2) + 143*std::pow(2*xi_2 + xi_3 - 1, 3))/std::pow(32*xi_2 + 32*xi_3 - 32, 2);
  196 => (760*xi_3 - 76)*(6*xi_1*std::pow(xi_2 + xi_3 - 1, 3) + 3*std::pow(xi_2 + xi_3 - 1, 4) - 5*(xi_2 + xi_3 - 1)*std::pow(2*xi_1 + xi_2 + xi_3 - 1, 3))*(168*xi_2*std::pow(xi_3 - 1, 3) + 127*std::pow(xi_3 - 1, 4) - 1326*std::pow(xi_3 - 1, 2)*std::pow(2*xi_2 + xi_3 - 1, 2) + 2548*(xi_3 - 1)*std::pow(2*xi_2 + xi_3 - 1, 3) - 1365*std::pow(2*xi_2 + xi_3 - 1, 4))/(64*xi_2 + 64*xi_3 - 64) + (304*xi_3 + 95*std::pow(2*xi_3 - 1, 2) - 93)*(6*xi_1*std::pow(xi_2 + xi_3 - 1, 3) + 3*std::pow(xi_2 + xi_3 - 1, 4) - 5*(xi_2 + xi_3 - 1)*std::pow(2*xi_1 + xi_2 + xi_3 - 1, 3))*(504*xi_2*std::pow(xi_3 - 1, 2) + 508*std::pow(xi_3 - 1, 3) - 1326*std::pow(xi_3 - 1, 2)*(4*xi_2 + 2*xi_3 - 2) + 7644*(xi_3 - 1)*std::pow(2*xi_2 + xi_3 - 1, 2) - 1326*(2*xi_3 - 2)*std::pow(2*xi_2 + xi_3 - 1, 2) - 2912*std::pow(2*xi_2 + xi_3 - 1, 3))/(64*xi_2 + 64*xi_3 - 64) + (304*xi_3 + 95*std::pow(2*xi_3 - 1, 2) - 93)*(18*xi_1*std::pow(xi_2 + xi_3 - 1, 2) + 12*std::pow(xi_2 + xi_3 - 1, 3) - 15*(xi_2 + xi_3 - 1)*std::pow(2*xi_1 + xi_2 + xi_3 - 1, 2) - 5*std::pow(2*xi_1 + xi_2 + xi_3 - 1, 3))*(168*xi_2*std::pow(xi_3 - 1, 3) + 127*std::pow(xi_3 - 1, 4) - 1326*std::pow(xi_3 - 1, 2)*std::pow(2*xi_2 + xi_3 - 1, 2) + 2548*(xi_3 - 1)*std::pow(2*xi_2 + xi_3 - 1, 3) - 1365*std::pow(2*xi_2 + xi_3 - 1, 4))/(64*xi_2 + 64*xi_3 - 64) - 64*(304*xi_3 + 95*std::pow(2*xi_3 - 1, 2) - 93)*(6*xi_1*std::pow(xi_2 + xi_3 - 1, 3) + 3*std::pow(xi_2 + xi_3 - 1, 4) - 5*(xi_2 + xi_3 - 1)*std::pow(2*xi_1 + xi_2 + xi_3 - 1, 3))*(168*xi_2*std::pow(xi_3 - 1, 3) + 127*std::pow(xi_3 - 1, 4) - 1326*std::pow(xi_3 - 1, 2)*std::pow(2*xi_2 + xi_3 - 1, 2) + 2548*(xi_3 - 1)*std::pow(2*xi_2 + xi_3 - 1, 3) - 1365*std::pow(2*xi_2 + xi_3 - 1, 4))/std::pow(64*xi_2 + 64*xi_3 - 64, 2);
  197 => (1/16)*(20*xi_3 - 1)*(6*xi_1*std::pow(xi_2 + xi_3 - 1, 3) + 5*(-xi_2 - xi_3 + 1)*std::pow(2*xi_1 + xi_2 + xi_3 - 1, 3) + 3*std::pow(xi_2 + xi_3 - 1, 4))*(1950*xi_2*std::pow(xi_3 - 1, 4) + 5460*std::pow(-xi_3 + 1, 3)*std::pow(2*xi_2 + xi_3 - 1, 2) - 5460*std::pow(-xi_3 + 1, 2)*std::pow(2*xi_2 + xi_3 - 1, 3) + 7735*(-xi_3 + 1)*std::pow(2*xi_2 + xi_3 - 1, 4) + 1044*std::pow(xi_3 - 1, 5) + 12740*std::pow(xi_3 - 1, 2)*std::pow(2*xi_2 + xi_3 - 1, 3) + 3185*(2*xi_3 - 2)*std::pow(2*xi_2 + xi_3 - 1, 4) - 1547*std::pow(2*xi_2 + xi_3 - 1, 5))/((xi_3 - 1)*(xi_2 + xi_3 - 1)) + (1/16)*(20*xi_3 - 1)*(18*xi_1*std::pow(xi_2 + xi_3 - 1, 2) + 15*(-xi_2 - xi_3 + 1)*std::pow(2*xi_1 + xi_2 + xi_3 - 1, 2) + 12*std::pow(xi_2 + xi_3 - 1, 3) - 5*std::pow(2*xi_1 + xi_2 + xi_3 - 1, 3))*(390*xi_2*std::pow(xi_3 - 1, 5) + 1820*std::pow(-xi_3 + 1, 3)*std::pow(2*xi_2 + xi_3 - 1, 3) + 1547*(-xi_3 + 1)*std::pow(2*xi_2 + xi_3 - 1, 5) + 174*std::pow(xi_3 - 1, 6) + 3185*std::pow(xi_3 - 1, 2)*std::pow(2*xi_2 + xi_3 - 1, 4))/((xi_3 - 1)*(xi_2 + xi_3 - 1)) - 1/16*(20*xi_3 - 1)*(6*xi_1*std::pow(xi_2 + xi_3 - 1, 3) + 5*(-xi_2 - xi_3 + 1)*std::pow(2*xi_1 + xi_2 + xi_3 - 1, 3) + 3*std::pow(xi_2 + xi_3 - 1, 4))*(390*xi_2*std::pow(xi_3 - 1, 5) + 1820*std::pow(-xi_3 + 1, 3)*std::pow(2*xi_2 + xi_3 - 1, 3) + 1547*(-xi_3 + 1)*std::pow(2*xi_2 + xi_3 - 1, 5) + 174*std::pow(xi_3 - 1, 6) + 3185*std::pow(xi_3 - 1, 2)*std::pow(2*xi_2 + xi_3 - 1, 4))/((xi_3 - 1)*std::pow(xi_2 + xi_3 - 1, 2)) + (5/4)*(6*xi_1*std::pow(xi_2 + xi_3 - 1, 3) + 5*(-xi_2 - xi_3 + 1)*std::pow(2*xi_1 + xi_2 + xi_3 - 1, 3) + 3*std::pow(xi_2 + xi_3 - 1, 4))*(390*xi_2*std::pow(xi_3 - 1, 5) + 1820*std::pow(-xi_3 + 1, 3)*std::pow(2*xi_2 + xi_3 - 1, 3) + 1547*(-xi_3 + 1)*std::pow(2*xi_2 + xi_3 - 1, 5) + 174*std::pow(xi_3 - 1, 6) + 3185*std::pow(xi_3 - 1, 2)*std::pow(2*xi_2 + xi_3 - 1, 4))/((xi_3 - 1)*(xi_2 + xi_3 - 1)) - 1/16*(20*xi_3 - 1)*(6*xi_1*std::pow(xi_2 + xi_3 - 1, 3) + 5*(-xi_2 - xi_3 + 1)*std::pow(2*xi_1 + xi_2 + xi_3 - 1, 3) + 3*std::pow(xi_2 + xi_3 - 1, 4))*(390*xi_2*std::pow(xi_3 - 1, 5) + 1820*std::pow(-xi_3 + 1, 3)*std::pow(2*xi_2 + xi_3 - 1, 3) + 1547*(-xi_3 + 1)*std::pow(2*xi_2 + xi_3 - 1, 5) + 174*std::pow(xi_3 - 1, 6) + 3185*std::pow(xi_3 - 1, 2)*std::pow(2*xi_2 + xi_3 - 1, 4))/(std::pow(xi_3 - 1, 2)*(xi_2 + xi_3 - 1));
  198 => -(6*xi_1*std::pow(xi_2 + xi_3 - 1, 3) + 3*std::pow(xi_2 + xi_3 - 1, 4) - 5*(xi_2 + xi_3 - 1)*std::pow(2*xi_1 + xi_2 + xi_3 - 1, 3))*(2940*xi_2*std::pow(xi_3 - 1, 4) + 1902*std::pow(xi_3 - 1, 5) - 1995*std::pow(xi_3 - 1, 4)*(4*xi_2 + 2*xi_3 - 2) - 5040*std::pow(xi_3 - 1, 3)*std::pow(2*xi_2 + xi_3 - 1, 2) + 38640*std::pow(xi_3 - 1, 2)*std::pow(2*xi_2 + xi_3 - 1, 3) - 74970*(xi_3 - 1)*std::pow(2*xi_2 + xi_3 - 1, 4) + 8925*(2*xi_3 - 2)*std::pow(2*xi_2 + xi_3 - 1, 4) + 25704*std::pow(2*xi_2 + xi_3 - 1, 5))/(32*xi_2 + 32*xi_3 - 32) - (18*xi_1*std::pow(xi_2 + xi_3 - 1, 2) + 12*std::pow(xi_2 + xi_3 - 1, 3) - 15*(xi_2 + xi_3 - 1)*std::pow(2*xi_1 + xi_2 + xi_3 - 1, 2) - 5*std::pow(2*xi_1 + xi_2 + xi_3 - 1, 3))*(588*xi_2*std::pow(xi_3 - 1, 5) + 317*std::pow(xi_3 - 1, 6) - 1995*std::pow(xi_3 - 1, 4)*std::pow(2*xi_2 + xi_3 - 1, 2) + 980*std::pow(xi_3 - 1, 3)*std::pow(2*xi_2 + xi_3 - 1, 3) + 8925*std::pow(xi_3 - 1, 2)*std::pow(2*xi_2 + xi_3 - 1, 4) - 14994*(xi_3 - 1)*std::pow(2*xi_2 + xi_3 - 1, 5) + 6783*std::pow(2*xi_2 + xi_3 - 1, 6))/(32*xi_2 + 32*xi_3 - 32) + 32*(6*xi_1*std::pow(xi_2 + xi_3 - 1, 3) + 3*std::pow(xi_2 + xi_3 - 1, 4) - 5*(xi_2 + xi_3 - 1)*std::pow(2*xi_1 + xi_2 + xi_3 - 1, 3))*(588*xi_2*std::pow(xi_3 - 1, 5) + 317*std::pow(xi_3 - 1, 6) - 1995*std::pow(xi_3 - 1, 4)*std::pow(2*xi_2 + xi_3 - 1, 2) + 980*std::pow(xi_3 - 1, 3)*std::pow(2*xi_2 + xi_3 - 1, 3) + 8925*std::pow(xi_3 - 1, 2)*std::pow(2*xi_2 + xi_3 - 1, 4) - 14994*(xi_3 - 1)*std::pow(2*xi_2 + xi_3 - 1, 5) + 6783*std::pow(2*xi_2 + xi_3 - 1, 6))/std::pow(32*xi_2 + 32*xi_3 - 32, 2);
  199 => (1/32)*(3*std::pow(xi_2 + xi_3 - 1, 4) - 30*std::pow(xi_2 + xi_3 - 1, 2)*std::pow(2*xi_1 + xi_2 + xi_3 - 1, 2) + 35*std::pow(2*xi_1 + xi_2 + xi_3 - 1, 4))*(9520*xi_3 + 19380*std::pow(2*xi_3 - 1, 4) + 38760*std::pow(2*xi_3 - 1, 3) + 24480*std::pow(2*xi_3 - 1, 2) - 4780) + (1/32)*(12*std::pow(xi_2 + xi_3 - 1, 3) - 30*std::pow(xi_2 + xi_3 - 1, 2)*(4*xi_1 + 2*xi_2 + 2*xi_3 - 2) - 30*(2*xi_2 + 2*xi_3 - 2)*std::pow(2*xi_1 + xi_2 + xi_3 - 1, 2) + 140*std::pow(2*xi_1 + xi_2 + xi_3 - 1, 3))*(-20*xi_3 + 1938*std::pow(2*xi_3 - 1, 5) + 4845*std::pow(2*xi_3 - 1, 4) + 4080*std::pow(2*xi_3 - 1, 3) + 1190*std::pow(2*xi_3 - 1, 2) - 21);
  200 => (1/128)*(11*xi_2 + xi_3 - 1)*(3*std::pow(xi_2 + xi_3 - 1, 4) - 30*std::pow(xi_2 + xi_3 - 1, 2)*std::pow(2*xi_1 + xi_2 + xi_3 - 1, 2) + 35*std::pow(2*xi_1 + xi_2 + xi_3 - 1, 4))*(75888*xi_3 + 38760*std::pow(2*xi_3 - 1, 3) + 69768*std::pow(2*xi_3 - 1, 2) - 32096) + (1/128)*(11*xi_2 + xi_3 - 1)*(12*std::pow(xi_2 + xi_3 - 1, 3) - 30*std::pow(xi_2 + xi_3 - 1, 2)*(4*xi_1 + 2*xi_2 + 2*xi_3 - 2) - 30*(2*xi_2 + 2*xi_3 - 2)*std::pow(2*xi_1 + xi_2 + xi_3 - 1, 2) + 140*std::pow(2*xi_1 + xi_2 + xi_3 - 1, 3))*(5848*xi_3 + 4845*std::pow(2*xi_3 - 1, 4) + 11628*std::pow(2*xi_3 - 1, 3) + 9486*std::pow(2*xi_3 - 1, 2) - 2687) + (1/128)*(3*std::pow(xi_2 + xi_3 - 1, 4) - 30*std::pow(xi_2 + xi_3 - 1, 2)*std::pow(2*xi_1 + xi_2 + xi_3 - 1, 2) + 35*std::pow(2*xi_1 + xi_2 + xi_3 - 1, 4))*(5848*xi_3 + 4845*std::pow(2*xi_3 - 1, 4) + 11628*std::pow(2*xi_3 - 1, 3) + 9486*std::pow(2*xi_3 - 1, 2) - 2687);
  201 => -(9576*xi_3 + 3420*std::pow(2*xi_3 - 1, 2) - 3204)*(108*xi_2*std::pow(xi_3 - 1, 2) + 37*std::pow(xi_3 - 1, 3) - 39*(xi_3 - 1)*std::pow(2*xi_2 + xi_3 - 1, 2))*(3*std::pow(xi_2 + xi_3 - 1, 4) - 30*std::pow(xi_2 + xi_3 - 1, 2)*std::pow(2*xi_1 + xi_2 + xi_3 - 1, 2) + 35*std::pow(2*xi_1 + xi_2 + xi_3 - 1, 4))/(64*xi_3 - 64) - (108*xi_2*std::pow(xi_3 - 1, 2) + 37*std::pow(xi_3 - 1, 3) - 39*(xi_3 - 1)*std::pow(2*xi_2 + xi_3 - 1, 2))*(1584*xi_3 + 570*std::pow(2*xi_3 - 1, 3) + 1197*std::pow(2*xi_3 - 1, 2) - 631)*(12*std::pow(xi_2 + xi_3 - 1, 3) - 30*std::pow(xi_2 + xi_3 - 1, 2)*(4*xi_1 + 2*xi_2 + 2*xi_3 - 2) - 30*(2*xi_2 + 2*xi_3 - 2)*std::pow(2*xi_1 + xi_2 + xi_3 - 1, 2) + 140*std::pow(2*xi_1 + xi_2 + xi_3 - 1, 3))/(64*xi_3 - 64) - (3*std::pow(xi_2 + xi_3 - 1, 4) - 30*std::pow(xi_2 + xi_3 - 1, 2)*std::pow(2*xi_1 + xi_2 + xi_3 - 1, 2) + 35*std::pow(2*xi_1 + xi_2 + xi_3 - 1, 4))*(1584*xi_3 + 570*std::pow(2*xi_3 - 1, 3) + 1197*std::pow(2*xi_3 - 1, 2) - 631)*(108*xi_2*(2*xi_3 - 2) + 111*std::pow(xi_3 - 1, 2) - 39*(xi_3 - 1)*(4*xi_2 + 2*xi_3 - 2) - 39*std::pow(2*xi_2 + xi_3 - 1, 2))/(64*xi_3 - 64) + 64*(108*xi_2*std::pow(xi_3 - 1, 2) + 37*std::pow(xi_3 - 1, 3) - 39*(xi_3 - 1)*std::pow(2*xi_2 + xi_3 - 1, 2))*(3*std::pow(xi_2 + xi_3 - 1, 4) - 30*std::pow(xi_2 + xi_3 - 1, 2)*std::pow(2*xi_1 + xi_2 + xi_3 - 1, 2) + 35*std::pow(2*xi_1 + xi_2 + xi_3 - 1, 4))*(1584*xi_3 + 570*std::pow(2*xi_3 - 1, 3) + 1197*std::pow(2*xi_3 - 1, 2) - 631)/std::pow(64*xi_3 - 64, 2);
  202 => (1/128)*(760*xi_3 - 76)*(3*std::pow(xi_2 + xi_3 - 1, 4) - 30*std::pow(xi_2 + xi_3 - 1, 2)*std::pow(2*xi_1 + xi_2 + xi_3 - 1, 2) + 35*std::pow(2*xi_1 + xi_2 + xi_3 - 1, 4))*(858*xi_2*std::pow(xi_3 - 1, 3) - 819*std::pow(-xi_3 + 1, 2)*std::pow(-2*xi_2 - xi_3 + 1, 2) + 455*(-xi_3 + 1)*std::pow(-2*xi_2 - xi_3 + 1, 3) + 372*std::pow(xi_3 - 1, 4))/(xi_3 - 1) + (1/128)*(304*xi_3 + 95*std::pow(2*xi_3 - 1, 2) - 93)*(3*std::pow(xi_2 + xi_3 - 1, 4) - 30*std::pow(xi_2 + xi_3 - 1, 2)*std::pow(2*xi_1 + xi_2 + xi_3 - 1, 2) + 35*std::pow(2*xi_1 + xi_2 + xi_3 - 1, 4))*(2574*xi_2*std::pow(xi_3 - 1, 2) - 819*std::pow(-xi_3 + 1, 2)*(4*xi_2 + 2*xi_3 - 2) - 1365*(-xi_3 + 1)*std::pow(-2*xi_2 - xi_3 + 1, 2) + 1488*std::pow(xi_3 - 1, 3) - 819*(2*xi_3 - 2)*std::pow(-2*xi_2 - xi_3 + 1, 2) - 455*std::pow(-2*xi_2 - xi_3 + 1, 3))/(xi_3 - 1) + (1/128)*(304*xi_3 + 95*std::pow(2*xi_3 - 1, 2) - 93)*(858*xi_2*std::pow(xi_3 - 1, 3) - 819*std::pow(-xi_3 + 1, 2)*std::pow(-2*xi_2 - xi_3 + 1, 2) + 455*(-xi_3 + 1)*std::pow(-2*xi_2 - xi_3 + 1, 3) + 372*std::pow(xi_3 - 1, 4))*(12*std::pow(xi_2 + xi_3 - 1, 3) - 30*std::pow(xi_2 + xi_3 - 1, 2)*(4*xi_1 + 2*xi_2 + 2*xi_3 - 2) - 30*(2*xi_2 + 2*xi_3 - 2)*std::pow(2*xi_1 + xi_2 + xi_3 - 1, 2) + 140*std::pow(2*xi_1 + xi_2 + xi_3 - 1, 3))/(xi_3 - 1) - 1/128*(304*xi_3 + 95*std::pow(2*xi_3 - 1, 2) - 93)*(3*std::pow(xi_2 + xi_3 - 1, 4) - 30*std::pow(xi_2 + xi_3 - 1, 2)*std::pow(2*xi_1 + xi_2 + xi_3 - 1, 2) + 35*std::pow(2*xi_1 + xi_2 + xi_3 - 1, 4))*(858*xi_2*std::pow(xi_3 - 1, 3) - 819*std::pow(-xi_3 + 1, 2)*std::pow(-2*xi_2 - xi_3 + 1, 2) + 455*(-xi_3 + 1)*std::pow(-2*xi_2 - xi_3 + 1, 3) + 372*std::pow(xi_3 - 1, 4))/std::pow(xi_3 - 1, 2);
  203 => (1/32)*(20*xi_3 - 1)*(3*std::pow(xi_2 + xi_3 - 1, 4) - 30*std::pow(xi_2 + xi_3 - 1, 2)*std::pow(2*xi_1 + xi_2 + xi_3 - 1, 2) + 35*std::pow(2*xi_1 + xi_2 + xi_3 - 1, 4))*(-1008*xi_2*std::pow(xi_3 - 1, 2) - 684*std::pow(xi_3 - 1, 3) + 840*std::pow(xi_3 - 1, 2)*(4*xi_2 + 2*xi_3 - 2) - 3780*(xi_3 - 1)*std::pow(2*xi_2 + xi_3 - 1, 2) + 840*(2*xi_3 - 2)*std::pow(2*xi_2 + xi_3 - 1, 2) + 1120*std::pow(2*xi_2 + xi_3 - 1, 3)) + (1/32)*(20*xi_3 - 1)*(12*std::pow(xi_2 + xi_3 - 1, 3) - 30*std::pow(xi_2 + xi_3 - 1, 2)*(4*xi_1 + 2*xi_2 + 2*xi_3 - 2) - 30*(2*xi_2 + 2*xi_3 - 2)*std::pow(2*xi_1 + xi_2 + xi_3 - 1, 2) + 140*std::pow(2*xi_1 + xi_2 + xi_3 - 1, 3))*(-336*xi_2*std::pow(xi_3 - 1, 3) - 171*std::pow(xi_3 - 1, 4) + 840*std::pow(xi_3 - 1, 2)*std::pow(2*xi_2 + xi_3 - 1, 2) - 1260*(xi_3 - 1)*std::pow(2*xi_2 + xi_3 - 1, 3) + 595*std::pow(2*xi_2 + xi_3 - 1, 4)) + (5/8)*(3*std::pow(xi_2 + xi_3 - 1, 4) - 30*std::pow(xi_2 + xi_3 - 1, 2)*std::pow(2*xi_1 + xi_2 + xi_3 - 1, 2) + 35*std::pow(2*xi_1 + xi_2 + xi_3 - 1, 4))*(-336*xi_2*std::pow(xi_3 - 1, 3) - 171*std::pow(xi_3 - 1, 4) + 840*std::pow(xi_3 - 1, 2)*std::pow(2*xi_2 + xi_3 - 1, 2) - 1260*(xi_3 - 1)*std::pow(2*xi_2 + xi_3 - 1, 3) + 595*std::pow(2*xi_2 + xi_3 - 1, 4));
  204 => -(3*std::pow(xi_2 + xi_3 - 1, 4) - 30*std::pow(xi_2 + xi_3 - 1, 2)*std::pow(2*xi_1 + xi_2 + xi_3 - 1, 2) + 35*std::pow(2*xi_1 + xi_2 + xi_3 - 1, 4))*(1650*xi_2*std::pow(xi_3 - 1, 4) + 684*std::pow(xi_3 - 1, 5) + 1170*std::pow(xi_3 - 1, 4)*(4*xi_2 + 2*xi_3 - 2) - 11130*std::pow(xi_3 - 1, 3)*std::pow(2*xi_2 + xi_3 - 1, 2) + 11730*std::pow(xi_3 - 1, 2)*std::pow(2*xi_2 + xi_3 - 1, 3) - 14535*(xi_3 - 1)*std::pow(2*xi_2 + xi_3 - 1, 4) + 6885*(2*xi_3 - 2)*std::pow(2*xi_2 + xi_3 - 1, 4) - 2907*std::pow(2*xi_2 + xi_3 - 1, 5))/(64*xi_3 - 64) - (12*std::pow(xi_2 + xi_3 - 1, 3) - 30*std::pow(xi_2 + xi_3 - 1, 2)*(4*xi_1 + 2*xi_2 + 2*xi_3 - 2) - 30*(2*xi_2 + 2*xi_3 - 2)*std::pow(2*xi_1 + xi_2 + xi_3 - 1, 2) + 140*std::pow(2*xi_1 + xi_2 + xi_3 - 1, 3))*(330*xi_2*std::pow(xi_3 - 1, 5) + 114*std::pow(xi_3 - 1, 6) + 1170*std::pow(xi_3 - 1, 4)*std::pow(2*xi_2 + xi_3 - 1, 2) - 5270*std::pow(xi_3 - 1, 3)*std::pow(2*xi_2 + xi_3 - 1, 3) + 6885*std::pow(xi_3 - 1, 2)*std::pow(2*xi_2 + xi_3 - 1, 4) - 2907*(xi_3 - 1)*std::pow(2*xi_2 + xi_3 - 1, 5))/(64*xi_3 - 64) + 64*(3*std::pow(xi_2 + xi_3 - 1, 4) - 30*std::pow(xi_2 + xi_3 - 1, 2)*std::pow(2*xi_1 + xi_2 + xi_3 - 1, 2) + 35*std::pow(2*xi_1 + xi_2 + xi_3 - 1, 4))*(330*xi_2*std::pow(xi_3 - 1, 5) + 114*std::pow(xi_3 - 1, 6) + 1170*std::pow(xi_3 - 1, 4)*std::pow(2*xi_2 + xi_3 - 1, 2) - 5270*std::pow(xi_3 - 1, 3)*std::pow(2*xi_2 + xi_3 - 1, 3) + 6885*std::pow(xi_3 - 1, 2)*std::pow(2*xi_2 + xi_3 - 1, 4) - 2907*(xi_3 - 1)*std::pow(2*xi_2 + xi_3 - 1, 5))/std::pow(64*xi_3 - 64, 2);
  205 => (1/128)*(75888*xi_3 + 38760*std::pow(2*xi_3 - 1, 3) + 69768*std::pow(2*xi_3 - 1, 2) - 32096)*(30*xi_1*std::pow(xi_2 + xi_3 - 1, 5) + 63*(-xi_2 - xi_3 + 1)*std::pow(-2*xi_1 - xi_2 - xi_3 + 1, 5) + 15*std::pow(xi_2 + xi_3 - 1, 6) + 70*std::pow(xi_2 + xi_3 - 1, 3)*std::pow(-2*xi_1 - xi_2 - xi_3 + 1, 3))/(xi_2 + xi_3 - 1) + (1/128)*(5848*xi_3 + 4845*std::pow(2*xi_3 - 1, 4) + 11628*std::pow(2*xi_3 - 1, 3) + 9486*std::pow(2*xi_3 - 1, 2) - 2687)*(150*xi_1*std::pow(xi_2 + xi_3 - 1, 4) - 315*(-xi_2 - xi_3 + 1)*std::pow(-2*xi_1 - xi_2 - xi_3 + 1, 4) + 90*std::pow(xi_2 + xi_3 - 1, 5) - 210*std::pow(xi_2 + xi_3 - 1, 3)*std::pow(-2*xi_1 - xi_2 - xi_3 + 1, 2) + 210*std::pow(xi_2 + xi_3 - 1, 2)*std::pow(-2*xi_1 - xi_2 - xi_3 + 1, 3) - 63*std::pow(-2*xi_1 - xi_2 - xi_3 + 1, 5))/(xi_2 + xi_3 - 1) - 1/128*(30*xi_1*std::pow(xi_2 + xi_3 - 1, 5) + 63*(-xi_2 - xi_3 + 1)*std::pow(-2*xi_1 - xi_2 - xi_3 + 1, 5) + 15*std::pow(xi_2 + xi_3 - 1, 6) + 70*std::pow(xi_2 + xi_3 - 1, 3)*std::pow(-2*xi_1 - xi_2 - xi_3 + 1, 3))*(5848*xi_3 + 4845*std::pow(2*xi_3 - 1, 4) + 11628*std::pow(2*xi_3 - 1, 3) + 9486*std::pow(2*xi_3 - 1, 2) - 2687)/std::pow(xi_2 + xi_3 - 1, 2);
  206 => (1/32)*(13*xi_2 + xi_3 - 1)*(9576*xi_3 + 3420*std::pow(2*xi_3 - 1, 2) - 3204)*(30*xi_1*std::pow(xi_2 + xi_3 - 1, 5) + 63*(-xi_2 - xi_3 + 1)*std::pow(-2*xi_1 - xi_2 - xi_3 + 1, 5) + 15*std::pow(xi_2 + xi_3 - 1, 6) + 70*std::pow(xi_2 + xi_3 - 1, 3)*std::pow(-2*xi_1 - xi_2 - xi_3 + 1, 3))/(xi_2 + xi_3 - 1) + (1/32)*(13*xi_2 + xi_3 - 1)*(1584*xi_3 + 570*std::pow(2*xi_3 - 1, 3) + 1197*std::pow(2*xi_3 - 1, 2) - 631)*(150*xi_1*std::pow(xi_2 + xi_3 - 1, 4) - 315*(-xi_2 - xi_3 + 1)*std::pow(-2*xi_1 - xi_2 - xi_3 + 1, 4) + 90*std::pow(xi_2 + xi_3 - 1, 5) - 210*std::pow(xi_2 + xi_3 - 1, 3)*std::pow(-2*xi_1 - xi_2 - xi_3 + 1, 2) + 210*std::pow(xi_2 + xi_3 - 1, 2)*std::pow(-2*xi_1 - xi_2 - xi_3 + 1, 3) - 63*std::pow(-2*xi_1 - xi_2 - xi_3 + 1, 5))/(xi_2 + xi_3 - 1) + (1/32)*(1584*xi_3 + 570*std::pow(2*xi_3 - 1, 3) + 1197*std::pow(2*xi_3 - 1, 2) - 631)*(30*xi_1*std::pow(xi_2 + xi_3 - 1, 5) + 63*(-xi_2 - xi_3 + 1)*std::pow(-2*xi_1 - xi_2 - xi_3 + 1, 5) + 15*std::pow(xi_2 + xi_3 - 1, 6) + 70*std::pow(xi_2 + xi_3 - 1, 3)*std::pow(-2*xi_1 - xi_2 - xi_3 + 1, 3))/(xi_2 + xi_3 - 1) - 1/32*(13*xi_2 + xi_3 - 1)*(1584*xi_3 + 570*std::pow(2*xi_3 - 1, 3) + 1197*std::pow(2*xi_3 - 1, 2) - 631)*(30*xi_1*std::pow(xi_2 + xi_3 - 1, 5) + 63*(-xi_2 - xi_3 + 1)*std::pow(-2*xi_1 - xi_2 - xi_3 + 1, 5) + 15*std::pow(xi_2 + xi_3 - 1, 6) + 70*std::pow(xi_2 + xi_3 - 1, 3)*std::pow(-2*xi_1 - xi_2 - xi_3 + 1, 3))/std::pow(xi_2 + xi_3 - 1, 2);
  207 => -1/64*(760*xi_3 - 76)*(308*xi_2*std::pow(xi_3 - 1, 2) + 101*std::pow(xi_3 - 1, 3) - 105*(xi_3 - 1)*std::pow(2*xi_2 + xi_3 - 1, 2))*(30*xi_1*std::pow(xi_2 + xi_3 - 1, 5) + 15*std::pow(xi_2 + xi_3 - 1, 6) - 70*std::pow(xi_2 + xi_3 - 1, 3)*std::pow(2*xi_1 + xi_2 + xi_3 - 1, 3) + 63*(xi_2 + xi_3 - 1)*std::pow(2*xi_1 + xi_2 + xi_3 - 1, 5))/((xi_3 - 1)*(xi_2 + xi_3 - 1)) - 1/64*(304*xi_3 + 95*std::pow(2*xi_3 - 1, 2) - 93)*(308*xi_2*std::pow(xi_3 - 1, 2) + 101*std::pow(xi_3 - 1, 3) - 105*(xi_3 - 1)*std::pow(2*xi_2 + xi_3 - 1, 2))*(150*xi_1*std::pow(xi_2 + xi_3 - 1, 4) + 90*std::pow(xi_2 + xi_3 - 1, 5) - 210*std::pow(xi_2 + xi_3 - 1, 3)*std::pow(2*xi_1 + xi_2 + xi_3 - 1, 2) - 210*std::pow(xi_2 + xi_3 - 1, 2)*std::pow(2*xi_1 + xi_2 + xi_3 - 1, 3) + 315*(xi_2 + xi_3 - 1)*std::pow(2*xi_1 + xi_2 + xi_3 - 1, 4) + 63*std::pow(2*xi_1 + xi_2 + xi_3 - 1, 5))/((xi_3 - 1)*(xi_2 + xi_3 - 1)) - 1/64*(304*xi_3 + 95*std::pow(2*xi_3 - 1, 2) - 93)*(30*xi_1*std::pow(xi_2 + xi_3 - 1, 5) + 15*std::pow(xi_2 + xi_3 - 1, 6) - 70*std::pow(xi_2 + xi_3 - 1, 3)*std::pow(2*xi_1 + xi_2 + xi_3 - 1, 3) + 63*(xi_2 + xi_3 - 1)*std::pow(2*xi_1 + xi_2 + xi_3 - 1, 5))*(308*xi_2*(2*xi_3 - 2) + 303*std::pow(xi_3 - 1, 2) - 105*(xi_3 - 1)*(4*xi_2 + 2*xi_3 - 2) - 105*std::pow(2*xi_2 + xi_3 - 1, 2))/((xi_3 - 1)*(xi_2 + xi_3 - 1)) + (1/64)*(304*xi_3 + 95*std::pow(2*xi_3 - 1, 2) - 93)*(308*xi_2*std::pow(xi_3 - 1, 2) + 101*std::pow(xi_3 - 1, 3) - 105*(xi_3 - 1)*std::pow(2*xi_2 + xi_3 - 1, 2))*(30*xi_1*std::pow(xi_2 + xi_3 - 1, 5) + 15*std::pow(xi_2 + xi_3 - 1, 6) - 70*std::pow(xi_2 + xi_3 - 1, 3)*std::pow(2*xi_1 + xi_2 + xi_3 - 1, 3) + 63*(xi_2 + xi_3 - 1)*std::pow(2*xi_1 + xi_2 + xi_3 - 1, 5))/((xi_3 - 1)*std::pow(xi_2 + xi_3 - 1, 2)) + (1/64)*(304*xi_3 + 95*std::pow(2*xi_3 - 1, 2) - 93)*(308*xi_2*std::pow(xi_3 - 1, 2) + 101*std::pow(xi_3 - 1, 3) - 105*(xi_3 - 1)*std::pow(2*xi_2 + xi_3 - 1, 2))*(30*xi_1*std::pow(xi_2 + xi_3 - 1, 5) + 15*std::pow(xi_2 + xi_3 - 1, 6) - 70*std::pow(xi_2 + xi_3 - 1, 3)*std::pow(2*xi_1 + xi_2 + xi_3 - 1, 3) + 63*(xi_2 + xi_3 - 1)*std::pow(2*xi_1 + xi_2 + xi_3 - 1, 5))/(std::pow(xi_3 - 1, 2)*(xi_2 + xi_3 - 1));
  208 => (1/8)*(20*xi_3 - 1)*(30*xi_1*std::pow(xi_2 + xi_3 - 1, 5) + 63*(-xi_2 - xi_3 + 1)*std::pow(-2*xi_1 - xi_2 - xi_3 + 1, 5) + 15*std::pow(xi_2 + xi_3 - 1, 6) + 70*std::pow(xi_2 + xi_3 - 1, 3)*std::pow(-2*xi_1 - xi_2 - xi_3 + 1, 3))*(195*xi_2*(2*xi_3 - 2) + 243*std::pow(xi_3 - 1, 2) - 165*(xi_3 - 1)*(4*xi_2 + 2*xi_3 - 2) + 90*std::pow(-2*xi_2 - xi_3 + 1, 2))/(xi_2 + xi_3 - 1) + (1/8)*(20*xi_3 - 1)*(195*xi_2*std::pow(xi_3 - 1, 2) + 81*std::pow(xi_3 - 1, 3) - 165*(xi_3 - 1)*std::pow(-2*xi_2 - xi_3 + 1, 2) - 85*std::pow(-2*xi_2 - xi_3 + 1, 3))*(150*xi_1*std::pow(xi_2 + xi_3 - 1, 4) - 315*(-xi_2 - xi_3 + 1)*std::pow(-2*xi_1 - xi_2 - xi_3 + 1, 4) + 90*std::pow(xi_2 + xi_3 - 1, 5) - 210*std::pow(xi_2 + xi_3 - 1, 3)*std::pow(-2*xi_1 - xi_2 - xi_3 + 1, 2) + 210*std::pow(xi_2 + xi_3 - 1, 2)*std::pow(-2*xi_1 - xi_2 - xi_3 + 1, 3) - 63*std::pow(-2*xi_1 - xi_2 - xi_3 + 1, 5))/(xi_2 + xi_3 - 1) - 1/8*(20*xi_3 - 1)*(30*xi_1*std::pow(xi_2 + xi_3 - 1, 5) + 63*(-xi_2 - xi_3 + 1)*std::pow(-2*xi_1 - xi_2 - xi_3 + 1, 5) + 15*std::pow(xi_2 + xi_3 - 1, 6) + 70*std::pow(xi_2 + xi_3 - 1, 3)*std::pow(-2*xi_1 - xi_2 - xi_3 + 1, 3))*(195*xi_2*std::pow(xi_3 - 1, 2) + 81*std::pow(xi_3 - 1, 3) - 165*(xi_3 - 1)*std::pow(-2*xi_2 - xi_3 + 1, 2) - 85*std::pow(-2*xi_2 - xi_3 + 1, 3))/std::pow(xi_2 + xi_3 - 1, 2) + (5/2)*(30*xi_1*std::pow(xi_2 + xi_3 - 1, 5) + 63*(-xi_2 - xi_3 + 1)*std::pow(-2*xi_1 - xi_2 - xi_3 + 1, 5) + 15*std::pow(xi_2 + xi_3 - 1, 6) + 70*std::pow(xi_2 + xi_3 - 1, 3)*std::pow(-2*xi_1 - xi_2 - xi_3 + 1, 3))*(195*xi_2*std::pow(xi_3 - 1, 2) + 81*std::pow(xi_3 - 1, 3) - 165*(xi_3 - 1)*std::pow(-2*xi_2 - xi_3 + 1, 2) - 85*std::pow(-2*xi_2 - xi_3 + 1, 3))/(xi_2 + xi_3 - 1);
  209 => (1/32)*(30*xi_1*std::pow(xi_2 + xi_3 - 1, 5) + 63*(-xi_2 - xi_3 + 1)*std::pow(-2*xi_1 - xi_2 - xi_3 + 1, 5) + 15*std::pow(xi_2 + xi_3 - 1, 6) + 70*std::pow(xi_2 + xi_3 - 1, 3)*std::pow(-2*xi_1 - xi_2 - xi_3 + 1, 3))*(-2904*xi_2*std::pow(xi_3 - 1, 2) - 1820*std::pow(xi_3 - 1, 3) + 1734*std::pow(xi_3 - 1, 2)*(4*xi_2 + 2*xi_3 - 2) - 6732*(xi_3 - 1)*std::pow(2*xi_2 + xi_3 - 1, 2) + 1734*(2*xi_3 - 2)*std::pow(2*xi_2 + xi_3 - 1, 2) + 1632*std::pow(2*xi_2 + xi_3 - 1, 3))/(xi_2 + xi_3 - 1) + (1/32)*(-968*xi_2*std::pow(xi_3 - 1, 3) - 455*std::pow(xi_3 - 1, 4) + 1734*std::pow(xi_3 - 1, 2)*std::pow(2*xi_2 + xi_3 - 1, 2) - 2244*(xi_3 - 1)*std::pow(2*xi_2 + xi_3 - 1, 3) + 969*std::pow(2*xi_2 + xi_3 - 1, 4))*(150*xi_1*std::pow(xi_2 + xi_3 - 1, 4) - 315*(-xi_2 - xi_3 + 1)*std::pow(-2*xi_1 - xi_2 - xi_3 + 1, 4) + 90*std::pow(xi_2 + xi_3 - 1, 5) - 210*std::pow(xi_2 + xi_3 - 1, 3)*std::pow(-2*xi_1 - xi_2 - xi_3 + 1, 2) + 210*std::pow(xi_2 + xi_3 - 1, 2)*std::pow(-2*xi_1 - xi_2 - xi_3 + 1, 3) - 63*std::pow(-2*xi_1 - xi_2 - xi_3 + 1, 5))/(xi_2 + xi_3 - 1) - 1/32*(30*xi_1*std::pow(xi_2 + xi_3 - 1, 5) + 63*(-xi_2 - xi_3 + 1)*std::pow(-2*xi_1 - xi_2 - xi_3 + 1, 5) + 15*std::pow(xi_2 + xi_3 - 1, 6) + 70*std::pow(xi_2 + xi_3 - 1, 3)*std::pow(-2*xi_1 - xi_2 - xi_3 + 1, 3))*(-968*xi_2*std::pow(xi_3 - 1, 3) - 455*std::pow(xi_3 - 1, 4) + 1734*std::pow(xi_3 - 1, 2)*std::pow(2*xi_2 + xi_3 - 1, 2) - 2244*(xi_3 - 1)*std::pow(2*xi_2 + xi_3 - 1, 3) + 969*std::pow(2*xi_2 + xi_3 - 1, 4))/std::pow(xi_2 + xi_3 - 1, 2);
  210 => (1/64)*(9576*xi_3 + 3420*std::pow(2*xi_3 - 1, 2) - 3204)*(-5*std::pow(xi_2 + xi_3 - 1, 6) + 105*std::pow(xi_2 + xi_3 - 1, 4)*std::pow(2*xi_1 + xi_2 + xi_3 - 1, 2) - 315*std::pow(xi_2 + xi_3 - 1, 2)*std::pow(2*xi_1 + xi_2 + xi_3 - 1, 4) + 231*std::pow(2*xi_1 + xi_2 + xi_3 - 1, 6)) + (1/64)*(1584*xi_3 + 570*std::pow(2*xi_3 - 1, 3) + 1197*std::pow(2*xi_3 - 1, 2) - 631)*(-30*std::pow(xi_2 + xi_3 - 1, 5) + 105*std::pow(xi_2 + xi_3 - 1, 4)*(4*xi_1 + 2*xi_2 + 2*xi_3 - 2) + 420*std::pow(xi_2 + xi_3 - 1, 3)*std::pow(2*xi_1 + xi_2 + xi_3 - 1, 2) - 1260*std::pow(xi_2 + xi_3 - 1, 2)*std::pow(2*xi_1 + xi_2 + xi_3 - 1, 3) - 315*(2*xi_2 + 2*xi_3 - 2)*std::pow(2*xi_1 + xi_2 + xi_3 - 1, 4) + 1386*std::pow(2*xi_1 + xi_2 + xi_3 - 1, 5));
  211 => (1/32)*(760*xi_3 - 76)*(15*xi_2 + xi_3 - 1)*(-5*std::pow(xi_2 + xi_3 - 1, 6) + 105*std::pow(xi_2 + xi_3 - 1, 4)*std::pow(2*xi_1 + xi_2 + xi_3 - 1, 2) - 315*std::pow(xi_2 + xi_3 - 1, 2)*std::pow(2*xi_1 + xi_2 + xi_3 - 1, 4) + 231*std::pow(2*xi_1 + xi_2 + xi_3 - 1, 6)) + (1/32)*(15*xi_2 + xi_3 - 1)*(304*xi_3 + 95*std::pow(2*xi_3 - 1, 2) - 93)*(-30*std::pow(xi_2 + xi_3 - 1, 5) + 105*std::pow(xi_2 + xi_3 - 1, 4)*(4*xi_1 + 2*xi_2 + 2*xi_3 - 2) + 420*std::pow(xi_2 + xi_3 - 1, 3)*std::pow(2*xi_1 + xi_2 + xi_3 - 1, 2) - 1260*std::pow(xi_2 + xi_3 - 1, 2)*std::pow(2*xi_1 + xi_2 + xi_3 - 1, 3) - 315*(2*xi_2 + 2*xi_3 - 2)*std::pow(2*xi_1 + xi_2 + xi_3 - 1, 4) + 1386*std::pow(2*xi_1 + xi_2 + xi_3 - 1, 5)) + (1/32)*(304*xi_3 + 95*std::pow(2*xi_3 - 1, 2) - 93)*(-5*std::pow(xi_2 + xi_3 - 1, 6) + 105*std::pow(xi_2 + xi_3 - 1, 4)*std::pow(2*xi_1 + xi_2 + xi_3 - 1, 2) - 315*std::pow(xi_2 + xi_3 - 1, 2)*std::pow(2*xi_1 + xi_2 + xi_3 - 1, 4) + 231*std::pow(2*xi_1 + xi_2 + xi_3 - 1, 6));
  212 => (20*xi_3 - 1)*(104*xi_2*std::pow(xi_3 - 1, 2) + 33*std::pow(xi_3 - 1, 3) - 34*(xi_3 - 1)*std::pow(2*xi_2 + xi_3 - 1, 2))*(30*std::pow(xi_2 + xi_3 - 1, 5) - 105*std::pow(xi_2 + xi_3 - 1, 4)*(4*xi_1 + 2*xi_2 + 2*xi_3 - 2) - 420*std::pow(xi_2 + xi_3 - 1, 3)*std::pow(2*xi_1 + xi_2 + xi_3 - 1, 2) + 1260*std::pow(xi_2 + xi_3 - 1, 2)*std::pow(2*xi_1 + xi_2 + xi_3 - 1, 3) + 315*(2*xi_2 + 2*xi_3 - 2)*std::pow(2*xi_1 + xi_2 + xi_3 - 1, 4) - 1386*std::pow(2*xi_1 + xi_2 + xi_3 - 1, 5))/(16*xi_3 - 16) + (20*xi_3 - 1)*(104*xi_2*(2*xi_3 - 2) + 99*std::pow(xi_3 - 1, 2) - 34*(xi_3 - 1)*(4*xi_2 + 2*xi_3 - 2) - 34*std::pow(2*xi_2 + xi_3 - 1, 2))*(5*std::pow(xi_2 + xi_3 - 1, 6) - 105*std::pow(xi_2 + xi_3 - 1, 4)*std::pow(2*xi_1 + xi_2 + xi_3 - 1, 2) + 315*std::pow(xi_2 + xi_3 - 1, 2)*std::pow(2*xi_1 + xi_2 + xi_3 - 1, 4) - 231*std::pow(2*xi_1 + xi_2 + xi_3 - 1, 6))/(16*xi_3 - 16) + 20*(104*xi_2*std::pow(xi_3 - 1, 2) + 33*std::pow(xi_3 - 1, 3) - 34*(xi_3 - 1)*std::pow(2*xi_2 + xi_3 - 1, 2))*(5*std::pow(xi_2 + xi_3 - 1, 6) - 105*std::pow(xi_2 + xi_3 - 1, 4)*std::pow(2*xi_1 + xi_2 + xi_3 - 1, 2) + 315*std::pow(xi_2 + xi_3 - 1, 2)*std::pow(2*xi_1 + xi_2 + xi_3 - 1, 4) - 231*std::pow(2*xi_1 + xi_2 + xi_3 - 1, 6))/(16*xi_3 - 16) - 16*(20*xi_3 - 1)*(104*xi_2*std::pow(xi_3 - 1, 2) + 33*std::pow(xi_3 - 1, 3) - 34*(xi_3 - 1)*std::pow(2*xi_2 + xi_3 - 1, 2))*(5*std::pow(xi_2 + xi_3 - 1, 6) - 105*std::pow(xi_2 + xi_3 - 1, 4)*std::pow(2*xi_1 + xi_2 + xi_3 - 1, 2) + 315*std::pow(xi_2 + xi_3 - 1, 2)*std::pow(2*xi_1 + xi_2 + xi_3 - 1, 4) - 231*std::pow(2*xi_1 + xi_2 + xi_3 - 1, 6))/std::pow(16*xi_3 - 16, 2);
  213 => (1/128)*(2550*xi_2*std::pow(xi_3 - 1, 3) - 1989*std::pow(-xi_3 + 1, 2)*std::pow(-2*xi_2 - xi_3 + 1, 2) + 969*(-xi_3 + 1)*std::pow(-2*xi_2 - xi_3 + 1, 3) + 1028*std::pow(xi_3 - 1, 4))*(-30*std::pow(xi_2 + xi_3 - 1, 5) + 105*std::pow(xi_2 + xi_3 - 1, 4)*(4*xi_1 + 2*xi_2 + 2*xi_3 - 2) + 420*std::pow(xi_2 + xi_3 - 1, 3)*std::pow(2*xi_1 + xi_2 + xi_3 - 1, 2) - 1260*std::pow(xi_2 + xi_3 - 1, 2)*std::pow(2*xi_1 + xi_2 + xi_3 - 1, 3) - 315*(2*xi_2 + 2*xi_3 - 2)*std::pow(2*xi_1 + xi_2 + xi_3 - 1, 4) + 1386*std::pow(2*xi_1 + xi_2 + xi_3 - 1, 5))/(xi_3 - 1) + (1/128)*(-5*std::pow(xi_2 + xi_3 - 1, 6) + 105*std::pow(xi_2 + xi_3 - 1, 4)*std::pow(2*xi_1 + xi_2 + xi_3 - 1, 2) - 315*std::pow(xi_2 + xi_3 - 1, 2)*std::pow(2*xi_1 + xi_2 + xi_3 - 1, 4) + 231*std::pow(2*xi_1 + xi_2 + xi_3 - 1, 6))*(7650*xi_2*std::pow(xi_3 - 1, 2) - 1989*std::pow(-xi_3 + 1, 2)*(4*xi_2 + 2*xi_3 - 2) - 2907*(-xi_3 + 1)*std::pow(-2*xi_2 - xi_3 + 1, 2) + 4112*std::pow(xi_3 - 1, 3) - 1989*(2*xi_3 - 2)*std::pow(-2*xi_2 - xi_3 + 1, 2) - 969*std::pow(-2*xi_2 - xi_3 + 1, 3))/(xi_3 - 1) - 1/128*(2550*xi_2*std::pow(xi_3 - 1, 3) - 1989*std::pow(-xi_3 + 1, 2)*std::pow(-2*xi_2 - xi_3 + 1, 2) + 969*(-xi_3 + 1)*std::pow(-2*xi_2 - xi_3 + 1, 3) + 1028*std::pow(xi_3 - 1, 4))*(-5*std::pow(xi_2 + xi_3 - 1, 6) + 105*std::pow(xi_2 + xi_3 - 1, 4)*std::pow(2*xi_1 + xi_2 + xi_3 - 1, 2) - 315*std::pow(xi_2 + xi_3 - 1, 2)*std::pow(2*xi_1 + xi_2 + xi_3 - 1, 4) + 231*std::pow(2*xi_1 + xi_2 + xi_3 - 1, 6))/std::pow(xi_3 - 1, 2);
  214 => -(760*xi_3 - 76)*(70*xi_1*std::pow(xi_2 + xi_3 - 1, 7) + 35*std::pow(xi_2 + xi_3 - 1, 8) - 315*std::pow(xi_2 + xi_3 - 1, 5)*std::pow(2*xi_1 + xi_2 + xi_3 - 1, 3) + 693*std::pow(xi_2 + xi_3 - 1, 3)*std::pow(2*xi_1 + xi_2 + xi_3 - 1, 5) - 429*(xi_2 + xi_3 - 1)*std::pow(2*xi_1 + xi_2 + xi_3 - 1, 7))/(32*xi_2 + 32*xi_3 - 32) - (304*xi_3 + 95*std::pow(2*xi_3 - 1, 2) - 93)*(490*xi_1*std::pow(xi_2 + xi_3 - 1, 6) + 280*std::pow(xi_2 + xi_3 - 1, 7) - 945*std::pow(xi_2 + xi_3 - 1, 5)*std::pow(2*xi_1 + xi_2 + xi_3 - 1, 2) - 1575*std::pow(xi_2 + xi_3 - 1, 4)*std::pow(2*xi_1 + xi_2 + xi_3 - 1, 3) + 3465*std::pow(xi_2 + xi_3 - 1, 3)*std::pow(2*xi_1 + xi_2 + xi_3 - 1, 4) + 2079*std::pow(xi_2 + xi_3 - 1, 2)*std::pow(2*xi_1 + xi_2 + xi_3 - 1, 5) - 3003*(xi_2 + xi_3 - 1)*std::pow(2*xi_1 + xi_2 + xi_3 - 1, 6) - 429*std::pow(2*xi_1 + xi_2 + xi_3 - 1, 7))/(32*xi_2 + 32*xi_3 - 32) + 32*(304*xi_3 + 95*std::pow(2*xi_3 - 1, 2) - 93)*(70*xi_1*std::pow(xi_2 + xi_3 - 1, 7) + 35*std::pow(xi_2 + xi_3 - 1, 8) - 315*std::pow(xi_2 + xi_3 - 1, 5)*std::pow(2*xi_1 + xi_2 + xi_3 - 1, 3) + 693*std::pow(xi_2 + xi_3 - 1, 3)*std::pow(2*xi_1 + xi_2 + xi_3 - 1, 5) - 429*(xi_2 + xi_3 - 1)*std::pow(2*xi_1 + xi_2 + xi_3 - 1, 7))/std::pow(32*xi_2 + 32*xi_3 - 32, 2);
  215 => -(20*xi_3 - 1)*(17*xi_2 + xi_3 - 1)*(490*xi_1*std::pow(xi_2 + xi_3 - 1, 6) + 280*std::pow(xi_2 + xi_3 - 1, 7) - 945*std::pow(xi_2 + xi_3 - 1, 5)*std::pow(2*xi_1 + xi_2 + xi_3 - 1, 2) - 1575*std::pow(xi_2 + xi_3 - 1, 4)*std::pow(2*xi_1 + xi_2 + xi_3 - 1, 3) + 3465*std::pow(xi_2 + xi_3 - 1, 3)*std::pow(2*xi_1 + xi_2 + xi_3 - 1, 4) + 2079*std::pow(xi_2 + xi_3 - 1, 2)*std::pow(2*xi_1 + xi_2 + xi_3 - 1, 5) - 3003*(xi_2 + xi_3 - 1)*std::pow(2*xi_1 + xi_2 + xi_3 - 1, 6) - 429*std::pow(2*xi_1 + xi_2 + xi_3 - 1, 7))/(16*xi_2 + 16*xi_3 - 16) - (20*xi_3 - 1)*(70*xi_1*std::pow(xi_2 + xi_3 - 1, 7) + 35*std::pow(xi_2 + xi_3 - 1, 8) - 315*std::pow(xi_2 + xi_3 - 1, 5)*std::pow(2*xi_1 + xi_2 + xi_3 - 1, 3) + 693*std::pow(xi_2 + xi_3 - 1, 3)*std::pow(2*xi_1 + xi_2 + xi_3 - 1, 5) - 429*(xi_2 + xi_3 - 1)*std::pow(2*xi_1 + xi_2 + xi_3 - 1, 7))/(16*xi_2 + 16*xi_3 - 16) + 16*(20*xi_3 - 1)*(17*xi_2 + xi_3 - 1)*(70*xi_1*std::pow(xi_2 + xi_3 - 1, 7) + 35*std::pow(xi_2 + xi_3 - 1, 8) - 315*std::pow(xi_2 + xi_3 - 1, 5)*std::pow(2*xi_1 + xi_2 + xi_3 - 1, 3) + 693*std::pow(xi_2 + xi_3 - 1, 3)*std::pow(2*xi_1 + xi_2 + xi_3 - 1, 5) - 429*(xi_2 + xi_3 - 1)*std::pow(2*xi_1 + xi_2 + xi_3 - 1, 7))/std::pow(16*xi_2 + 16*xi_3 - 16, 2) - 20*(17*xi_2 + xi_3 - 1)*(70*xi_1*std::pow(xi_2 + xi_3 - 1, 7) + 35*std::pow(xi_2 + xi_3 - 1, 8) - 315*std::pow(xi_2 + xi_3 - 1, 5)*std::pow(2*xi_1 + xi_2 + xi_3 - 1, 3) + 693*std::pow(xi_2 + xi_3 - 1, 3)*std::pow(2*xi_1 + xi_2 + xi_3 - 1, 5) - 429*(xi_2 + xi_3 - 1)*std::pow(2*xi_1 + xi_2 + xi_3 - 1, 7))/(16*xi_2 + 16*xi_3 - 16);
  216 => (1/64)*(540*xi_2*std::pow(xi_3 - 1, 2) + 171*(-xi_3 + 1)*std::pow(-2*xi_2 - xi_3 + 1, 2) + 167*std::pow(xi_3 - 1, 3))*(490*xi_1*std::pow(xi_2 + xi_3 - 1, 6) + 945*std::pow(-xi_2 - xi_3 + 1, 5)*std::pow(2*xi_1 + xi_2 + xi_3 - 1, 2) - 1575*std::pow(-xi_2 - xi_3 + 1, 4)*std::pow(2*xi_1 + xi_2 + xi_3 - 1, 3) + 3003*(-xi_2 - xi_3 + 1)*std::pow(2*xi_1 + xi_2 + xi_3 - 1, 6) + 280*std::pow(xi_2 + xi_3 - 1, 7) + 3465*std::pow(xi_2 + xi_3 - 1, 3)*std::pow(2*xi_1 + xi_2 + xi_3 - 1, 4) + 2079*std::pow(xi_2 + xi_3 - 1, 2)*std::pow(2*xi_1 + xi_2 + xi_3 - 1, 5) - 429*std::pow(2*xi_1 + xi_2 + xi_3 - 1, 7))/((xi_3 - 1)*(xi_2 + xi_3 - 1)) + (1/64)*(540*xi_2*(2*xi_3 - 2) + 171*(-xi_3 + 1)*(4*xi_2 + 2*xi_3 - 2) + 501*std::pow(xi_3 - 1, 2) - 171*std::pow(-2*xi_2 - xi_3 + 1, 2))*(70*xi_1*std::pow(xi_2 + xi_3 - 1, 7) + 315*std::pow(-xi_2 - xi_3 + 1, 5)*std::pow(2*xi_1 + xi_2 + xi_3 - 1, 3) + 429*(-xi_2 - xi_3 + 1)*std::pow(2*xi_1 + xi_2 + xi_3 - 1, 7) + 35*std::pow(xi_2 + xi_3 - 1, 8) + 693*std::pow(xi_2 + xi_3 - 1, 3)*std::pow(2*xi_1 + xi_2 + xi_3 - 1, 5))/((xi_3 - 1)*(xi_2 + xi_3 - 1)) - 1/64*(540*xi_2*std::pow(xi_3 - 1, 2) + 171*(-xi_3 + 1)*std::pow(-2*xi_2 - xi_3 + 1, 2) + 167*std::pow(xi_3 - 1, 3))*(70*xi_1*std::pow(xi_2 + xi_3 - 1, 7) + 315*std::pow(-xi_2 - xi_3 + 1, 5)*std::pow(2*xi_1 + xi_2 + xi_3 - 1, 3) + 429*(-xi_2 - xi_3 + 1)*std::pow(2*xi_1 + xi_2 + xi_3 - 1, 7) + 35*std::pow(xi_2 + xi_3 - 1, 8) + 693*std::pow(xi_2 + xi_3 - 1, 3)*std::pow(2*xi_1 + xi_2 + xi_3 - 1, 5))/((xi_3 - 1)*std::pow(xi_2 + xi_3 - 1, 2)) - 1/64*(540*xi_2*std::pow(xi_3 - 1, 2) + 171*(-xi_3 + 1)*std::pow(-2*xi_2 - xi_3 + 1, 2) + 167*std::pow(xi_3 - 1, 3))*(70*xi_1*std::pow(xi_2 + xi_3 - 1, 7) + 315*std::pow(-xi_2 - xi_3 + 1, 5)*std::pow(2*xi_1 + xi_2 + xi_3 - 1, 3) + 429*(-xi_2 - xi_3 + 1)*std::pow(2*xi_1 + xi_2 + xi_3 - 1, 7) + 35*std::pow(xi_2 + xi_3 - 1, 8) + 693*std::pow(xi_2 + xi_3 - 1, 3)*std::pow(2*xi_1 + xi_2 + xi_3 - 1, 5))/(std::pow(xi_3 - 1, 2)*(xi_2 + xi_3 - 1));
  217 => (1/128)*(20*xi_3 - 1)*(280*std::pow(xi_2 + xi_3 - 1, 7) - 1260*std::pow(xi_2 + xi_3 - 1, 6)*(4*xi_1 + 2*xi_2 + 2*xi_3 - 2) - 7560*std::pow(xi_2 + xi_3 - 1, 5)*std::pow(2*xi_1 + xi_2 + xi_3 - 1, 2) + 27720*std::pow(xi_2 + xi_3 - 1, 4)*std::pow(2*xi_1 + xi_2 + xi_3 - 1, 3) + 27720*std::pow(xi_2 + xi_3 - 1, 3)*std::pow(2*xi_1 + xi_2 + xi_3 - 1, 4) - 72072*std::pow(xi_2 + xi_3 - 1, 2)*std::pow(2*xi_1 + xi_2 + xi_3 - 1, 5) - 12012*(2*xi_2 + 2*xi_3 - 2)*std::pow(2*xi_1 + xi_2 + xi_3 - 1, 6) + 51480*std::pow(2*xi_1 + xi_2 + xi_3 - 1, 7)) + (175/32)*std::pow(xi_2 + xi_3 - 1, 8) - 1575/8*std::pow(xi_2 + xi_3 - 1, 6)*std::pow(2*xi_1 + xi_2 + xi_3 - 1, 2) + (17325/16)*std::pow(xi_2 + xi_3 - 1, 4)*std::pow(2*xi_1 + xi_2 + xi_3 - 1, 4) - 15015/8*std::pow(xi_2 + xi_3 - 1, 2)*std::pow(2*xi_1 + xi_2 + xi_3 - 1, 6) + (32175/32)*std::pow(2*xi_1 + xi_2 + xi_3 - 1, 8);
  218 => (35/128)*std::pow(xi_2 + xi_3 - 1, 8) - 315/32*std::pow(xi_2 + xi_3 - 1, 6)*std::pow(2*xi_1 + xi_2 + xi_3 - 1, 2) + (3465/64)*std::pow(xi_2 + xi_3 - 1, 4)*std::pow(2*xi_1 + xi_2 + xi_3 - 1, 4) - 3003/32*std::pow(xi_2 + xi_3 - 1, 2)*std::pow(2*xi_1 + xi_2 + xi_3 - 1, 6) + (1/128)*(19*xi_2 + xi_3 - 1)*(280*std::pow(xi_2 + xi_3 - 1, 7) - 1260*std::pow(xi_2 + xi_3 - 1, 6)*(4*xi_1 + 2*xi_2 + 2*xi_3 - 2) - 7560*std::pow(xi_2 + xi_3 - 1, 5)*std::pow(2*xi_1 + xi_2 + xi_3 - 1, 2) + 27720*std::pow(xi_2 + xi_3 - 1, 4)*std::pow(2*xi_1 + xi_2 + xi_3 - 1, 3) + 27720*std::pow(xi_2 + xi_3 - 1, 3)*std::pow(2*xi_1 + xi_2 + xi_3 - 1, 4) - 72072*std::pow(xi_2 + xi_3 - 1, 2)*std::pow(2*xi_1 + xi_2 + xi_3 - 1, 5) - 12012*(2*xi_2 + 2*xi_3 - 2)*std::pow(2*xi_1 + xi_2 + xi_3 - 1, 6) + 51480*std::pow(2*xi_1 + xi_2 + xi_3 - 1, 7)) + (6435/128)*std::pow(2*xi_1 + xi_2 + xi_3 - 1, 8);
  219 => (1/128)*(5670*xi_1*std::pow(xi_2 + xi_3 - 1, 8) - 90090*std::pow(-xi_2 - xi_3 + 1, 5)*std::pow(-2*xi_1 - xi_2 - xi_3 + 1, 4) - 90090*std::pow(-xi_2 - xi_3 + 1, 4)*std::pow(-2*xi_1 - xi_2 - xi_3 + 1, 5) - 109395*(-xi_2 - xi_3 + 1)*std::pow(-2*xi_1 - xi_2 - xi_3 + 1, 8) + 3150*std::pow(xi_2 + xi_3 - 1, 9) - 13860*std::pow(xi_2 + xi_3 - 1, 7)*std::pow(-2*xi_1 - xi_2 - xi_3 + 1, 2) + 32340*std::pow(xi_2 + xi_3 - 1, 6)*std::pow(-2*xi_1 - xi_2 - xi_3 + 1, 3) - 180180*std::pow(xi_2 + xi_3 - 1, 3)*std::pow(-2*xi_1 - xi_2 - xi_3 + 1, 6) + 77220*std::pow(xi_2 + xi_3 - 1, 2)*std::pow(-2*xi_1 - xi_2 - xi_3 + 1, 7) - 12155*std::pow(-2*xi_1 - xi_2 - xi_3 + 1, 9))/(xi_2 + xi_3 - 1) - 1/128*(630*xi_1*std::pow(xi_2 + xi_3 - 1, 9) + 18018*std::pow(-xi_2 - xi_3 + 1, 5)*std::pow(-2*xi_1 - xi_2 - xi_3 + 1, 5) + 12155*(-xi_2 - xi_3 + 1)*std::pow(-2*xi_1 - xi_2 - xi_3 + 1, 9) + 315*std::pow(xi_2 + xi_3 - 1, 10) + 4620*std::pow(xi_2 + xi_3 - 1, 7)*std::pow(-2*xi_1 - xi_2 - xi_3 + 1, 3) + 25740*std::pow(xi_2 + xi_3 - 1, 3)*std::pow(-2*xi_1 - xi_2 - xi_3 + 1, 7))/std::pow(xi_2 + xi_3 - 1, 2);
  220 => 6466460*std::pow(xi_3, 9) - 26453700*std::pow(xi_3, 8) + 45349200*std::pow(xi_3, 7) - 42325920*std::pow(xi_3, 6) + 23390640*std::pow(xi_3, 5) - 7796880*std::pow(xi_3, 4) + 1528800*std::pow(xi_3, 3) - 163800*std::pow(xi_3, 2) + 8190*xi_3 - 130;
  221 => -1197/64*xi_3 + (124355/128)*std::pow(2*xi_3 - 1, 9) + (101745/64)*std::pow(2*xi_3 - 1, 8) - 14535/32*std::pow(2*xi_3 - 1, 7) - 6783/4*std::pow(2*xi_3 - 1, 6) - 18207/64*std::pow(2*xi_3 - 1, 5) + (16065/32)*std::pow(2*xi_3 - 1, 4) + (4305/32)*std::pow(2*xi_3 - 1, 3) - 315/8*std::pow(2*xi_3 - 1, 2) - 1/128*(3*xi_2 + xi_3 - 1)*(40320*xi_3 - 2238390*std::pow(2*xi_3 - 1, 8) - 3255840*std::pow(2*xi_3 - 1, 7) + 813960*std::pow(2*xi_3 - 1, 6) + 2604672*std::pow(2*xi_3 - 1, 5) + 364140*std::pow(2*xi_3 - 1, 4) - 514080*std::pow(2*xi_3 - 1, 3) - 103320*std::pow(2*xi_3 - 1, 2) - 17766) + 1239/128;
  222 => -(4*xi_2*std::pow(xi_3 - 1, 2) + 3*std::pow(xi_3 - 1, 3) - 5*(xi_3 - 1)*std::pow(2*xi_2 + xi_3 - 1, 2))*(117600*xi_3 + 2558160*std::pow(2*xi_3 - 1, 7) + 4883760*std::pow(2*xi_3 - 1, 6) + 1627920*std::pow(2*xi_3 - 1, 5) - 1627920*std::pow(2*xi_3 - 1, 4) - 942480*std::pow(2*xi_3 - 1, 3) + 28560*std::pow(2*xi_3 - 1, 2) - 56160)/(256*xi_3 - 256) - (4*xi_2*(2*xi_3 - 2) + 9*std::pow(xi_3 - 1, 2) - 5*(xi_3 - 1)*(4*xi_2 + 2*xi_3 - 2) - 5*std::pow(2*xi_2 + xi_3 - 1, 2))*(2640*xi_3 + 159885*std::pow(2*xi_3 - 1, 8) + 348840*std::pow(2*xi_3 - 1, 7) + 135660*std::pow(2*xi_3 - 1, 6) - 162792*std::pow(2*xi_3 - 1, 5) - 117810*std::pow(2*xi_3 - 1, 4) + 4760*std::pow(2*xi_3 - 1, 3) + 14700*std::pow(2*xi_3 - 1, 2) - 1499)/(256*xi_3 - 256) + 256*(4*xi_2*std::pow(xi_3 - 1, 2) + 3*std::pow(xi_3 - 1, 3) - 5*(xi_3 - 1)*std::pow(2*xi_2 + xi_3 - 1, 2))*(2640*xi_3 + 159885*std::pow(2*xi_3 - 1, 8) + 348840*std::pow(2*xi_3 - 1, 7) + 135660*std::pow(2*xi_3 - 1, 6) - 162792*std::pow(2*xi_3 - 1, 5) - 117810*std::pow(2*xi_3 - 1, 4) + 4760*std::pow(2*xi_3 - 1, 3) + 14700*std::pow(2*xi_3 - 1, 2) - 1499)/std::pow(256*xi_3 - 256, 2);
  223 => -(30*xi_2*std::pow(xi_3 - 1, 3) + 12*std::pow(xi_3 - 1, 4) + 15*std::pow(xi_3 - 1, 2)*std::pow(2*xi_2 + xi_3 - 1, 2) - 35*(xi_3 - 1)*std::pow(2*xi_2 + xi_3 - 1, 3))*(-11424*xi_3 + 149226*std::pow(2*xi_3 - 1, 6) + 325584*std::pow(2*xi_3 - 1, 5) + 203490*std::pow(2*xi_3 - 1, 4) - 32130*std::pow(2*xi_3 - 1, 2) + 5894)/(64*xi_3 - 64) - (90*xi_2*std::pow(xi_3 - 1, 2) + 48*std::pow(xi_3 - 1, 3) + 15*std::pow(xi_3 - 1, 2)*(4*xi_2 + 2*xi_3 - 2) - 105*(xi_3 - 1)*std::pow(2*xi_2 + xi_3 - 1, 2) + 15*(2*xi_3 - 2)*std::pow(2*xi_2 + xi_3 - 1, 2) - 35*std::pow(2*xi_2 + xi_3 - 1, 3))*(182*xi_3 + 10659*std::pow(2*xi_3 - 1, 7) + 27132*std::pow(2*xi_3 - 1, 6) + 20349*std::pow(2*xi_3 - 1, 5) - 5355*std::pow(2*xi_3 - 1, 3) - 1428*std::pow(2*xi_3 - 1, 2) - 59)/(64*xi_3 - 64) + 64*(30*xi_2*std::pow(xi_3 - 1, 3) + 12*std::pow(xi_3 - 1, 4) + 15*std::pow(xi_3 - 1, 2)*std::pow(2*xi_2 + xi_3 - 1, 2) - 35*(xi_3 - 1)*std::pow(2*xi_2 + xi_3 - 1, 3))*(182*xi_3 + 10659*std::pow(2*xi_3 - 1, 7) + 27132*std::pow(2*xi_3 - 1, 6) + 20349*std::pow(2*xi_3 - 1, 5) - 5355*std::pow(2*xi_3 - 1, 3) - 1428*std::pow(2*xi_3 - 1, 2) - 59)/std::pow(64*xi_3 - 64, 2);
  224 => (1/512)*(24*xi_2*std::pow(xi_3 - 1, 3) + 15*std::pow(xi_3 - 1, 4) - 42*std::pow(xi_3 - 1, 2)*std::pow(2*xi_2 + xi_3 - 1, 2) - 28*(xi_3 - 1)*std::pow(2*xi_2 + xi_3 - 1, 3) + 63*std::pow(2*xi_2 + xi_3 - 1, 4))*(-55080*xi_3 + 895356*std::pow(2*xi_3 - 1, 5) + 2034900*std::pow(2*xi_3 - 1, 4) + 1511640*std::pow(2*xi_3 - 1, 3) + 348840*std::pow(2*xi_3 - 1, 2) + 16728) + (1/512)*(72*xi_2*std::pow(xi_3 - 1, 2) + 60*std::pow(xi_3 - 1, 3) - 42*std::pow(xi_3 - 1, 2)*(4*xi_2 + 2*xi_3 - 2) - 84*(xi_3 - 1)*std::pow(2*xi_2 + xi_3 - 1, 2) - 42*(2*xi_3 - 2)*std::pow(2*xi_2 + xi_3 - 1, 2) + 224*std::pow(2*xi_2 + xi_3 - 1, 3))*(-10812*xi_3 + 74613*std::pow(2*xi_3 - 1, 6) + 203490*std::pow(2*xi_3 - 1, 5) + 188955*std::pow(2*xi_3 - 1, 4) + 58140*std::pow(2*xi_3 - 1, 3) - 6885*std::pow(2*xi_3 - 1, 2) + 5011);
  225 => (1/256)*(109440*xi_3 + 131670*std::pow(2*xi_3 - 1, 4) + 287280*std::pow(2*xi_3 - 1, 3) + 208620*std::pow(2*xi_3 - 1, 2) - 51570)*(70*xi_2*std::pow(xi_3 - 1, 5) - 105*std::pow(-xi_3 + 1, 2)*std::pow(-2*xi_2 - xi_3 + 1, 4) + 231*(-xi_3 + 1)*std::pow(-2*xi_2 - xi_3 + 1, 5) + 30*std::pow(xi_3 - 1, 6) + 70*std::pow(xi_3 - 1, 4)*std::pow(-2*xi_2 - xi_3 + 1, 2) + 210*std::pow(xi_3 - 1, 3)*std::pow(-2*xi_2 - xi_3 + 1, 3))/(xi_3 - 1) + (1/256)*(3150*xi_3 + 13167*std::pow(2*xi_3 - 1, 5) + 35910*std::pow(2*xi_3 - 1, 4) + 34770*std::pow(2*xi_3 - 1, 3) + 13680*std::pow(2*xi_3 - 1, 2) - 1669)*(350*xi_2*std::pow(xi_3 - 1, 4) + 420*std::pow(-xi_3 + 1, 2)*std::pow(-2*xi_2 - xi_3 + 1, 3) - 1155*(-xi_3 + 1)*std::pow(-2*xi_2 - xi_3 + 1, 4) + 180*std::pow(xi_3 - 1, 5) + 70*std::pow(xi_3 - 1, 4)*(4*xi_2 + 2*xi_3 - 2) - 350*std::pow(xi_3 - 1, 3)*std::pow(-2*xi_2 - xi_3 + 1, 2) + 630*std::pow(xi_3 - 1, 2)*std::pow(-2*xi_2 - xi_3 + 1, 3) - 105*(2*xi_3 - 2)*std::pow(-2*xi_2 - xi_3 + 1, 4) - 231*std::pow(-2*xi_2 - xi_3 + 1, 5))/(xi_3 - 1) - 1/256*(3150*xi_3 + 13167*std::pow(2*xi_3 - 1, 5) + 35910*std::pow(2*xi_3 - 1, 4) + 34770*std::pow(2*xi_3 - 1, 3) + 13680*std::pow(2*xi_3 - 1, 2) - 1669)*(70*xi_2*std::pow(xi_3 - 1, 5) - 105*std::pow(-xi_3 + 1, 2)*std::pow(-2*xi_2 - xi_3 + 1, 4) + 231*(-xi_3 + 1)*std::pow(-2*xi_2 - xi_3 + 1, 5) + 30*std::pow(xi_3 - 1, 6) + 70*std::pow(xi_3 - 1, 4)*std::pow(-2*xi_2 - xi_3 + 1, 2) + 210*std::pow(xi_3 - 1, 3)*std::pow(-2*xi_2 - xi_3 + 1, 3))/std::pow(xi_3 - 1, 2);
  226 => -(132240*xi_3 + 58520*std::pow(2*xi_3 - 1, 3) + 111720*std::pow(2*xi_3 - 1, 2) - 54416)*(60*xi_2*std::pow(xi_3 - 1, 6) + 35*std::pow(xi_3 - 1, 7) - 135*std::pow(xi_3 - 1, 5)*std::pow(2*xi_2 + xi_3 - 1, 2) - 180*std::pow(xi_3 - 1, 4)*std::pow(2*xi_2 + xi_3 - 1, 3) + 495*std::pow(xi_3 - 1, 3)*std::pow(2*xi_2 + xi_3 - 1, 4) + 198*std::pow(xi_3 - 1, 2)*std::pow(2*xi_2 + xi_3 - 1, 5) - 429*(xi_3 - 1)*std::pow(2*xi_2 + xi_3 - 1, 6))/(256*xi_3 - 256) - (11704*xi_3 + 7315*std::pow(2*xi_3 - 1, 4) + 18620*std::pow(2*xi_3 - 1, 3) + 16530*std::pow(2*xi_3 - 1, 2) - 5209)*(360*xi_2*std::pow(xi_3 - 1, 5) + 245*std::pow(xi_3 - 1, 6) - 135*std::pow(xi_3 - 1, 5)*(4*xi_2 + 2*xi_3 - 2) - 1215*std::pow(xi_3 - 1, 4)*std::pow(2*xi_2 + xi_3 - 1, 2) + 1260*std::pow(xi_3 - 1, 3)*std::pow(2*xi_2 + xi_3 - 1, 3) + 2475*std::pow(xi_3 - 1, 2)*std::pow(2*xi_2 + xi_3 - 1, 4) - 2574*(xi_3 - 1)*std::pow(2*xi_2 + xi_3 - 1, 5) + 198*(2*xi_3 - 2)*std::pow(2*xi_2 + xi_3 - 1, 5) - 429*std::pow(2*xi_2 + xi_3 - 1, 6))/(256*xi_3 - 256) + 256*(11704*xi_3 + 7315*std::pow(2*xi_3 - 1, 4) + 18620*std::pow(2*xi_3 - 1, 3) + 16530*std::pow(2*xi_3 - 1, 2) - 5209)*(60*xi_2*std::pow(xi_3 - 1, 6) + 35*std::pow(xi_3 - 1, 7) - 135*std::pow(xi_3 - 1, 5)*std::pow(2*xi_2 + xi_3 - 1, 2) - 180*std::pow(xi_3 - 1, 4)*std::pow(2*xi_2 + xi_3 - 1, 3) + 495*std::pow(xi_3 - 1, 3)*std::pow(2*xi_2 + xi_3 - 1, 4) + 198*std::pow(xi_3 - 1, 2)*std::pow(2*xi_2 + xi_3 - 1, 5) - 429*(xi_3 - 1)*std::pow(2*xi_2 + xi_3 - 1, 6))/std::pow(256*xi_3 - 256, 2);
  227 => -(6720*xi_3 + 2310*std::pow(2*xi_3 - 1, 2) - 2190)*(630*xi_2*std::pow(xi_3 - 1, 7) + 280*std::pow(xi_3 - 1, 8) + 945*std::pow(xi_3 - 1, 6)*std::pow(2*xi_2 + xi_3 - 1, 2) - 3465*std::pow(xi_3 - 1, 5)*std::pow(2*xi_2 + xi_3 - 1, 3) - 3465*std::pow(xi_3 - 1, 4)*std::pow(2*xi_2 + xi_3 - 1, 4) + 9009*std::pow(xi_3 - 1, 3)*std::pow(2*xi_2 + xi_3 - 1, 5) + 3003*std::pow(xi_3 - 1, 2)*std::pow(2*xi_2 + xi_3 - 1, 6) - 6435*(xi_3 - 1)*std::pow(2*xi_2 + xi_3 - 1, 7))/(256*xi_3 - 256) - (1170*xi_3 + 385*std::pow(2*xi_3 - 1, 3) + 840*std::pow(2*xi_3 - 1, 2) - 457)*(4410*xi_2*std::pow(xi_3 - 1, 6) + 2240*std::pow(xi_3 - 1, 7) + 945*std::pow(xi_3 - 1, 6)*(4*xi_2 + 2*xi_3 - 2) - 4725*std::pow(xi_3 - 1, 5)*std::pow(2*xi_2 + xi_3 - 1, 2) - 31185*std::pow(xi_3 - 1, 4)*std::pow(2*xi_2 + xi_3 - 1, 3) + 31185*std::pow(xi_3 - 1, 3)*std::pow(2*xi_2 + xi_3 - 1, 4) + 45045*std::pow(xi_3 - 1, 2)*std::pow(2*xi_2 + xi_3 - 1, 5) - 45045*(xi_3 - 1)*std::pow(2*xi_2 + xi_3 - 1, 6) + 3003*(2*xi_3 - 2)*std::pow(2*xi_2 + xi_3 - 1, 6) - 6435*std::pow(2*xi_2 + xi_3 - 1, 7))/(256*xi_3 - 256) + 256*(1170*xi_3 + 385*std::pow(2*xi_3 - 1, 3) + 840*std::pow(2*xi_3 - 1, 2) - 457)*(630*xi_2*std::pow(xi_3 - 1, 7) + 280*std::pow(xi_3 - 1, 8) + 945*std::pow(xi_3 - 1, 6)*std::pow(2*xi_2 + xi_3 - 1, 2) - 3465*std::pow(xi_3 - 1, 5)*std::pow(2*xi_2 + xi_3 - 1, 3) - 3465*std::pow(xi_3 - 1, 4)*std::pow(2*xi_2 + xi_3 - 1, 4) + 9009*std::pow(xi_3 - 1, 3)*std::pow(2*xi_2 + xi_3 - 1, 5) + 3003*std::pow(xi_3 - 1, 2)*std::pow(2*xi_2 + xi_3 - 1, 6) - 6435*(xi_3 - 1)*std::pow(2*xi_2 + xi_3 - 1, 7))/std::pow(256*xi_3 - 256, 2);
  228 => (1/512)*(1848*xi_3 - 168)*(560*xi_2*std::pow(xi_3 - 1, 7) - 1540*std::pow(-xi_3 + 1, 6)*std::pow(2*xi_2 + xi_3 - 1, 2) + 3080*std::pow(-xi_3 + 1, 5)*std::pow(2*xi_2 + xi_3 - 1, 3) - 20020*std::pow(-xi_3 + 1, 2)*std::pow(2*xi_2 + xi_3 - 1, 6) + 5720*(-xi_3 + 1)*std::pow(2*xi_2 + xi_3 - 1, 7) + 315*std::pow(xi_3 - 1, 8) + 10010*std::pow(xi_3 - 1, 4)*std::pow(2*xi_2 + xi_3 - 1, 4) + 8008*std::pow(xi_3 - 1, 3)*std::pow(2*xi_2 + xi_3 - 1, 5) + 12155*std::pow(2*xi_2 + xi_3 - 1, 8)) + (1/512)*(756*xi_3 + 231*std::pow(2*xi_3 - 1, 2) - 227)*(3920*xi_2*std::pow(xi_3 - 1, 6) - 1540*std::pow(-xi_3 + 1, 6)*(4*xi_2 + 2*xi_3 - 2) + 18480*std::pow(-xi_3 + 1, 5)*std::pow(2*xi_2 + xi_3 - 1, 2) - 15400*std::pow(-xi_3 + 1, 4)*std::pow(2*xi_2 + xi_3 - 1, 3) - 120120*std::pow(-xi_3 + 1, 2)*std::pow(2*xi_2 + xi_3 - 1, 5) + 40040*(-xi_3 + 1)*std::pow(2*xi_2 + xi_3 - 1, 6) + 2520*std::pow(xi_3 - 1, 7) + 40040*std::pow(xi_3 - 1, 4)*std::pow(2*xi_2 + xi_3 - 1, 3) + 80080*std::pow(xi_3 - 1, 3)*std::pow(2*xi_2 + xi_3 - 1, 4) + 24024*std::pow(xi_3 - 1, 2)*std::pow(2*xi_2 + xi_3 - 1, 5) - 20020*(2*xi_3 - 2)*std::pow(2*xi_2 + xi_3 - 1, 6) + 91520*std::pow(2*xi_2 + xi_3 - 1, 7));
  229 => (1/256)*(22*xi_3 - 1)*(12474*xi_2*std::pow(xi_3 - 1, 8) + 72072*std::pow(-xi_3 + 1, 6)*std::pow(-2*xi_2 - xi_3 + 1, 3) - 162162*std::pow(-xi_3 + 1, 5)*std::pow(-2*xi_2 - xi_3 + 1, 4) - 270270*std::pow(-xi_3 + 1, 4)*std::pow(-2*xi_2 - xi_3 + 1, 5) + 175032*std::pow(-xi_3 + 1, 2)*std::pow(-2*xi_2 - xi_3 + 1, 7) - 415701*(-xi_3 + 1)*std::pow(-2*xi_2 - xi_3 + 1, 8) + 6300*std::pow(xi_3 - 1, 9) + 2772*std::pow(xi_3 - 1, 8)*(4*xi_2 + 2*xi_3 - 2) - 13860*std::pow(xi_3 - 1, 7)*std::pow(-2*xi_2 - xi_3 + 1, 2) + 84084*std::pow(xi_3 - 1, 6)*std::pow(-2*xi_2 - xi_3 + 1, 3) - 216216*std::pow(xi_3 - 1, 4)*std::pow(-2*xi_2 - xi_3 + 1, 5) - 468468*std::pow(xi_3 - 1, 3)*std::pow(-2*xi_2 - xi_3 + 1, 6) + 262548*std::pow(xi_3 - 1, 2)*std::pow(-2*xi_2 - xi_3 + 1, 7) - 21879*(2*xi_3 - 2)*std::pow(-2*xi_2 - xi_3 + 1, 8) - 46189*std::pow(-2*xi_2 - xi_3 + 1, 9))/(xi_3 - 1) + (11/128)*(1386*xi_2*std::pow(xi_3 - 1, 9) - 18018*std::pow(-xi_3 + 1, 6)*std::pow(-2*xi_2 - xi_3 + 1, 4) + 54054*std::pow(-xi_3 + 1, 5)*std::pow(-2*xi_2 - xi_3 + 1, 5) - 21879*std::pow(-xi_3 + 1, 2)*std::pow(-2*xi_2 - xi_3 + 1, 8) + 46189*(-xi_3 + 1)*std::pow(-2*xi_2 - xi_3 + 1, 9) + 630*std::pow(xi_3 - 1, 10) + 2772*std::pow(xi_3 - 1, 8)*std::pow(-2*xi_2 - xi_3 + 1, 2) + 12012*std::pow(xi_3 - 1, 7)*std::pow(-2*xi_2 - xi_3 + 1, 3) + 36036*std::pow(xi_3 - 1, 4)*std::pow(-2*xi_2 - xi_3 + 1, 6) + 87516*std::pow(xi_3 - 1, 3)*std::pow(-2*xi_2 - xi_3 + 1, 7))/(xi_3 - 1) - 1/256*(22*xi_3 - 1)*(1386*xi_2*std::pow(xi_3 - 1, 9) - 18018*std::pow(-xi_3 + 1, 6)*std::pow(-2*xi_2 - xi_3 + 1, 4) + 54054*std::pow(-xi_3 + 1, 5)*std::pow(-2*xi_2 - xi_3 + 1, 5) - 21879*std::pow(-xi_3 + 1, 2)*std::pow(-2*xi_2 - xi_3 + 1, 8) + 46189*(-xi_3 + 1)*std::pow(-2*xi_2 - xi_3 + 1, 9) + 630*std::pow(xi_3 - 1, 10) + 2772*std::pow(xi_3 - 1, 8)*std::pow(-2*xi_2 - xi_3 + 1, 2) + 12012*std::pow(xi_3 - 1, 7)*std::pow(-2*xi_2 - xi_3 + 1, 3) + 36036*std::pow(xi_3 - 1, 4)*std::pow(-2*xi_2 - xi_3 + 1, 6) + 87516*std::pow(xi_3 - 1, 3)*std::pow(-2*xi_2 - xi_3 + 1, 7))/std::pow(xi_3 - 1, 2);
  230 => (1/256)*(-12600*xi_2*std::pow(xi_3 - 1, 9) - 4095*std::pow(-xi_3 + 1, 9)*(4*xi_2 + 2*xi_3 - 2) + 36855*std::pow(-xi_3 + 1, 8)*std::pow(-2*xi_2 - xi_3 + 1, 2) - 245700*std::pow(-xi_3 + 1, 6)*std::pow(-2*xi_2 - xi_3 + 1, 4) + 540540*std::pow(-xi_3 + 1, 5)*std::pow(-2*xi_2 - xi_3 + 1, 5) + 696150*std::pow(-xi_3 + 1, 4)*std::pow(-2*xi_2 - xi_3 + 1, 6) - 377910*std::pow(-xi_3 + 1, 2)*std::pow(-2*xi_2 - xi_3 + 1, 8) + 881790*(-xi_3 + 1)*std::pow(-2*xi_2 - xi_3 + 1, 9) - 7623*std::pow(xi_3 - 1, 10) + 32760*std::pow(xi_3 - 1, 8)*std::pow(-2*xi_2 - xi_3 + 1, 2) + 76440*std::pow(xi_3 - 1, 7)*std::pow(-2*xi_2 - xi_3 + 1, 3) - 286650*std::pow(xi_3 - 1, 6)*std::pow(-2*xi_2 - xi_3 + 1, 4) + 556920*std::pow(xi_3 - 1, 4)*std::pow(-2*xi_2 - xi_3 + 1, 6) + 1193400*std::pow(xi_3 - 1, 3)*std::pow(-2*xi_2 - xi_3 + 1, 7) - 566865*std::pow(xi_3 - 1, 2)*std::pow(-2*xi_2 - xi_3 + 1, 8) + 41990*(2*xi_3 - 2)*std::pow(-2*xi_2 - xi_3 + 1, 9) + 88179*std::pow(-2*xi_2 - xi_3 + 1, 10))/(xi_3 - 1) - 1/256*(-1260*xi_2*std::pow(xi_3 - 1, 10) - 4095*std::pow(-xi_3 + 1, 9)*std::pow(-2*xi_2 - xi_3 + 1, 2) + 49140*std::pow(-xi_3 + 1, 6)*std::pow(-2*xi_2 - xi_3 + 1, 5) - 139230*std::pow(-xi_3 + 1, 5)*std::pow(-2*xi_2 - xi_3 + 1, 6) + 41990*std::pow(-xi_3 + 1, 2)*std::pow(-2*xi_2 - xi_3 + 1, 9) - 88179*(-xi_3 + 1)*std::pow(-2*xi_2 - xi_3 + 1, 10) - 693*std::pow(xi_3 - 1, 11) - 10920*std::pow(xi_3 - 1, 8)*std::pow(-2*xi_2 - xi_3 + 1, 3) - 40950*std::pow(xi_3 - 1, 7)*std::pow(-2*xi_2 - xi_3 + 1, 4) - 79560*std::pow(xi_3 - 1, 4)*std::pow(-2*xi_2 - xi_3 + 1, 7) - 188955*std::pow(xi_3 - 1, 3)*std::pow(-2*xi_2 - xi_3 + 1, 8))/std::pow(xi_3 - 1, 2);
  231 => -1197/64*xi_3 + (124355/128)*std::pow(2*xi_3 - 1, 9) + (101745/64)*std::pow(2*xi_3 - 1, 8) - 14535/32*std::pow(2*xi_3 - 1, 7) - 6783/4*std::pow(2*xi_3 - 1, 6) - 18207/64*std::pow(2*xi_3 - 1, 5) + (16065/32)*std::pow(2*xi_3 - 1, 4) + (4305/32)*std::pow(2*xi_3 - 1, 3) - 315/8*std::pow(2*xi_3 - 1, 2) - 1/128*(2*xi_1 + xi_2 + xi_3 - 1)*(40320*xi_3 - 2238390*std::pow(2*xi_3 - 1, 8) - 3255840*std::pow(2*xi_3 - 1, 7) + 813960*std::pow(2*xi_3 - 1, 6) + 2604672*std::pow(2*xi_3 - 1, 5) + 364140*std::pow(2*xi_3 - 1, 4) - 514080*std::pow(2*xi_3 - 1, 3) - 103320*std::pow(2*xi_3 - 1, 2) - 17766) + 1239/128;
  232 => (1/128)*(5*xi_2 + xi_3 - 1)*(2*xi_1 + xi_2 + xi_3 - 1)*(117600*xi_3 + 2558160*std::pow(2*xi_3 - 1, 7) + 4883760*std::pow(2*xi_3 - 1, 6) + 1627920*std::pow(2*xi_3 - 1, 5) - 1627920*std::pow(2*xi_3 - 1, 4) - 942480*std::pow(2*xi_3 - 1, 3) + 28560*std::pow(2*xi_3 - 1, 2) - 56160) + (1/128)*(5*xi_2 + xi_3 - 1)*(2640*xi_3 + 159885*std::pow(2*xi_3 - 1, 8) + 348840*std::pow(2*xi_3 - 1, 7) + 135660*std::pow(2*xi_3 - 1, 6) - 162792*std::pow(2*xi_3 - 1, 5) - 117810*std::pow(2*xi_3 - 1, 4) + 4760*std::pow(2*xi_3 - 1, 3) + 14700*std::pow(2*xi_3 - 1, 2) - 1499) + (1/128)*(2*xi_1 + xi_2 + xi_3 - 1)*(2640*xi_3 + 159885*std::pow(2*xi_3 - 1, 8) + 348840*std::pow(2*xi_3 - 1, 7) + 135660*std::pow(2*xi_3 - 1, 6) - 162792*std::pow(2*xi_3 - 1, 5) - 117810*std::pow(2*xi_3 - 1, 4) + 4760*std::pow(2*xi_3 - 1, 3) + 14700*std::pow(2*xi_3 - 1, 2) - 1499);
  233 => -(36*xi_2*std::pow(xi_3 - 1, 2) + 17*std::pow(xi_3 - 1, 3) - 21*(xi_3 - 1)*std::pow(2*xi_2 + xi_3 - 1, 2))*(2*xi_1 + xi_2 + xi_3 - 1)*(-11424*xi_3 + 149226*std::pow(2*xi_3 - 1, 6) + 325584*std::pow(2*xi_3 - 1, 5) + 203490*std::pow(2*xi_3 - 1, 4) - 32130*std::pow(2*xi_3 - 1, 2) + 5894)/(32*xi_3 - 32) - (36*xi_2*std::pow(xi_3 - 1, 2) + 17*std::pow(xi_3 - 1, 3) - 21*(xi_3 - 1)*std::pow(2*xi_2 + xi_3 - 1, 2))*(182*xi_3 + 10659*std::pow(2*xi_3 - 1, 7) + 27132*std::pow(2*xi_3 - 1, 6) + 20349*std::pow(2*xi_3 - 1, 5) - 5355*std::pow(2*xi_3 - 1, 3) - 1428*std::pow(2*xi_3 - 1, 2) - 59)/(32*xi_3 - 32) - (2*xi_1 + xi_2 + xi_3 - 1)*(36*xi_2*(2*xi_3 - 2) + 51*std::pow(xi_3 - 1, 2) - 21*(xi_3 - 1)*(4*xi_2 + 2*xi_3 - 2) - 21*std::pow(2*xi_2 + xi_3 - 1, 2))*(182*xi_3 + 10659*std::pow(2*xi_3 - 1, 7) + 27132*std::pow(2*xi_3 - 1, 6) + 20349*std::pow(2*xi_3 - 1, 5) - 5355*std::pow(2*xi_3 - 1, 3) - 1428*std::pow(2*xi_3 - 1, 2) - 59)/(32*xi_3 - 32) + 32*(36*xi_2*std::pow(xi_3 - 1, 2) + 17*std::pow(xi_3 - 1, 3) - 21*(xi_3 - 1)*std::pow(2*xi_2 + xi_3 - 1, 2))*(2*xi_1 + xi_2 + xi_3 - 1)*(182*xi_3 + 10659*std::pow(2*xi_3 - 1, 7) + 27132*std::pow(2*xi_3 - 1, 6) + 20349*std::pow(2*xi_3 - 1, 5) - 5355*std::pow(2*xi_3 - 1, 3) - 1428*std::pow(2*xi_3 - 1, 2) - 59)/std::pow(32*xi_3 - 32, 2);
  234 => (1/128)*(6*std::pow(xi_3 - 1, 2) - 21*(xi_3 - 1)*(4*xi_2 + 2*xi_3 - 2) + 42*std::pow(2*xi_2 + xi_3 - 1, 2))*(2*xi_1 + xi_2 + xi_3 - 1)*(-10812*xi_3 + 74613*std::pow(2*xi_3 - 1, 6) + 203490*std::pow(2*xi_3 - 1, 5) + 188955*std::pow(2*xi_3 - 1, 4) + 58140*std::pow(2*xi_3 - 1, 3) - 6885*std::pow(2*xi_3 - 1, 2) + 5011) + (1/128)*(2*std::pow(xi_3 - 1, 3) - 21*(xi_3 - 1)*std::pow(2*xi_2 + xi_3 - 1, 2) + 21*std::pow(2*xi_2 + xi_3 - 1, 3))*(2*xi_1 + xi_2 + xi_3 - 1)*(-55080*xi_3 + 895356*std::pow(2*xi_3 - 1, 5) + 2034900*std::pow(2*xi_3 - 1, 4) + 1511640*std::pow(2*xi_3 - 1, 3) + 348840*std::pow(2*xi_3 - 1, 2) + 16728) + (1/128)*(2*std::pow(xi_3 - 1, 3) - 21*(xi_3 - 1)*std::pow(2*xi_2 + xi_3 - 1, 2) + 21*std::pow(2*xi_2 + xi_3 - 1, 3))*(-10812*xi_3 + 74613*std::pow(2*xi_3 - 1, 6) + 203490*std::pow(2*xi_3 - 1, 5) + 188955*std::pow(2*xi_3 - 1, 4) + 58140*std::pow(2*xi_3 - 1, 3) - 6885*std::pow(2*xi_3 - 1, 2) + 5011);
  235 => (1/128)*(2*xi_1 + xi_2 + xi_3 - 1)*(109440*xi_3 + 131670*std::pow(2*xi_3 - 1, 4) + 287280*std::pow(2*xi_3 - 1, 3) + 208620*std::pow(2*xi_3 - 1, 2) - 51570)*(88*xi_2*std::pow(xi_3 - 1, 3) + 41*std::pow(xi_3 - 1, 4) - 18*std::pow(xi_3 - 1, 2)*std::pow(2*xi_2 + xi_3 - 1, 2) - 180*(xi_3 - 1)*std::pow(2*xi_2 + xi_3 - 1, 3) + 165*std::pow(2*xi_2 + xi_3 - 1, 4)) + (1/128)*(2*xi_1 + xi_2 + xi_3 - 1)*(3150*xi_3 + 13167*std::pow(2*xi_3 - 1, 5) + 35910*std::pow(2*xi_3 - 1, 4) + 34770*std::pow(2*xi_3 - 1, 3) + 13680*std::pow(2*xi_3 - 1, 2) - 1669)*(264*xi_2*std::pow(xi_3 - 1, 2) + 164*std::pow(xi_3 - 1, 3) - 18*std::pow(xi_3 - 1, 2)*(4*xi_2 + 2*xi_3 - 2) - 540*(xi_3 - 1)*std::pow(2*xi_2 + xi_3 - 1, 2) - 18*(2*xi_3 - 2)*std::pow(2*xi_2 + xi_3 - 1, 2) + 480*std::pow(2*xi_2 + xi_3 - 1, 3)) + (1/128)*(88*xi_2*std::pow(xi_3 - 1, 3) + 41*std::pow(xi_3 - 1, 4) - 18*std::pow(xi_3 - 1, 2)*std::pow(2*xi_2 + xi_3 - 1, 2) - 180*(xi_3 - 1)*std::pow(2*xi_2 + xi_3 - 1, 3) + 165*std::pow(2*xi_2 + xi_3 - 1, 4))*(3150*xi_3 + 13167*std::pow(2*xi_3 - 1, 5) + 35910*std::pow(2*xi_3 - 1, 4) + 34770*std::pow(2*xi_3 - 1, 3) + 13680*std::pow(2*xi_3 - 1, 2) - 1669);
  236 => (1/512)*(2*xi_1 + xi_2 + xi_3 - 1)*(132240*xi_3 + 58520*std::pow(2*xi_3 - 1, 3) + 111720*std::pow(2*xi_3 - 1, 2) - 54416)*(-90*xi_2*std::pow(xi_3 - 1, 5) - 70*std::pow(-xi_3 + 1, 6) - 1485*std::pow(-xi_3 + 1, 2)*std::pow(-2*xi_2 - xi_3 + 1, 4) + 1287*(-xi_3 + 1)*std::pow(-2*xi_2 - xi_3 + 1, 5) + 630*std::pow(xi_3 - 1, 4)*std::pow(-2*xi_2 - xi_3 + 1, 2) + 330*std::pow(xi_3 - 1, 3)*std::pow(-2*xi_2 - xi_3 + 1, 3))/(xi_3 - 1) + (1/512)*(2*xi_1 + xi_2 + xi_3 - 1)*(11704*xi_3 + 7315*std::pow(2*xi_3 - 1, 4) + 18620*std::pow(2*xi_3 - 1, 3) + 16530*std::pow(2*xi_3 - 1, 2) - 5209)*(-450*xi_2*std::pow(xi_3 - 1, 4) + 420*std::pow(-xi_3 + 1, 5) + 5940*std::pow(-xi_3 + 1, 2)*std::pow(-2*xi_2 - xi_3 + 1, 3) - 6435*(-xi_3 + 1)*std::pow(-2*xi_2 - xi_3 + 1, 4) + 630*std::pow(xi_3 - 1, 4)*(4*xi_2 + 2*xi_3 - 2) + 1530*std::pow(xi_3 - 1, 3)*std::pow(-2*xi_2 - xi_3 + 1, 2) + 990*std::pow(xi_3 - 1, 2)*std::pow(-2*xi_2 - xi_3 + 1, 3) - 1485*(2*xi_3 - 2)*std::pow(-2*xi_2 - xi_3 + 1, 4) - 1287*std::pow(-2*xi_2 - xi_3 + 1, 5))/(xi_3 - 1) + (1/512)*(11704*xi_3 + 7315*std::pow(2*xi_3 - 1, 4) + 18620*std::pow(2*xi_3 - 1, 3) + 16530*std::pow(2*xi_3 - 1, 2) - 5209)*(-90*xi_2*std::pow(xi_3 - 1, 5) - 70*std::pow(-xi_3 + 1, 6) - 1485*std::pow(-xi_3 + 1, 2)*std::pow(-2*xi_2 - xi_3 + 1, 4) + 1287*(-xi_3 + 1)*std::pow(-2*xi_2 - xi_3 + 1, 5) + 630*std::pow(xi_3 - 1, 4)*std::pow(-2*xi_2 - xi_3 + 1, 2) + 330*std::pow(xi_3 - 1, 3)*std::pow(-2*xi_2 - xi_3 + 1, 3))/(xi_3 - 1) - 1/512*(2*xi_1 + xi_2 + xi_3 - 1)*(11704*xi_3 + 7315*std::pow(2*xi_3 - 1, 4) + 18620*std::pow(2*xi_3 - 1, 3) + 16530*std::pow(2*xi_3 - 1, 2) - 5209)*(-90*xi_2*std::pow(xi_3 - 1, 5) - 70*std::pow(-xi_3 + 1, 6) - 1485*std::pow(-xi_3 + 1, 2)*std::pow(-2*xi_2 - xi_3 + 1, 4) + 1287*(-xi_3 + 1)*std::pow(-2*xi_2 - xi_3 + 1, 5) + 630*std::pow(xi_3 - 1, 4)*std::pow(-2*xi_2 - xi_3 + 1, 2) + 330*std::pow(xi_3 - 1, 3)*std::pow(-2*xi_2 - xi_3 + 1, 3))/std::pow(xi_3 - 1, 2);
  237 => -(6720*xi_3 + 2310*std::pow(2*xi_3 - 1, 2) - 2190)*(2*xi_1 + xi_2 + xi_3 - 1)*(780*xi_2*std::pow(xi_3 - 1, 6) + 365*std::pow(xi_3 - 1, 7) + 165*std::pow(xi_3 - 1, 5)*std::pow(2*xi_2 + xi_3 - 1, 2) - 3740*std::pow(xi_3 - 1, 4)*std::pow(2*xi_2 + xi_3 - 1, 3) + 2145*std::pow(xi_3 - 1, 3)*std::pow(2*xi_2 + xi_3 - 1, 4) + 6006*std::pow(xi_3 - 1, 2)*std::pow(2*xi_2 + xi_3 - 1, 5) - 5005*(xi_3 - 1)*std::pow(2*xi_2 + xi_3 - 1, 6))/(128*xi_3 - 128) - (2*xi_1 + xi_2 + xi_3 - 1)*(1170*xi_3 + 385*std::pow(2*xi_3 - 1, 3) + 840*std::pow(2*xi_3 - 1, 2) - 457)*(4680*xi_2*std::pow(xi_3 - 1, 5) + 2555*std::pow(xi_3 - 1, 6) + 165*std::pow(xi_3 - 1, 5)*(4*xi_2 + 2*xi_3 - 2) - 10395*std::pow(xi_3 - 1, 4)*std::pow(2*xi_2 + xi_3 - 1, 2) - 6380*std::pow(xi_3 - 1, 3)*std::pow(2*xi_2 + xi_3 - 1, 3) + 36465*std::pow(xi_3 - 1, 2)*std::pow(2*xi_2 + xi_3 - 1, 4) - 30030*(xi_3 - 1)*std::pow(2*xi_2 + xi_3 - 1, 5) + 6006*(2*xi_3 - 2)*std::pow(2*xi_2 + xi_3 - 1, 5) - 5005*std::pow(2*xi_2 + xi_3 - 1, 6))/(128*xi_3 - 128) - (1170*xi_3 + 385*std::pow(2*xi_3 - 1, 3) + 840*std::pow(2*xi_3 - 1, 2) - 457)*(780*xi_2*std::pow(xi_3 - 1, 6) + 365*std::pow(xi_3 - 1, 7) + 165*std::pow(xi_3 - 1, 5)*std::pow(2*xi_2 + xi_3 - 1, 2) - 3740*std::pow(xi_3 - 1, 4)*std::pow(2*xi_2 + xi_3 - 1, 3) + 2145*std::pow(xi_3 - 1, 3)*std::pow(2*xi_2 + xi_3 - 1, 4) + 6006*std::pow(xi_3 - 1, 2)*std::pow(2*xi_2 + xi_3 - 1, 5) - 5005*(xi_3 - 1)*std::pow(2*xi_2 + xi_3 - 1, 6))/(128*xi_3 - 128) + 128*(2*xi_1 + xi_2 + xi_3 - 1)*(1170*xi_3 + 385*std::pow(2*xi_3 - 1, 3) + 840*std::pow(2*xi_3 - 1, 2) - 457)*(780*xi_2*std::pow(xi_3 - 1, 6) + 365*std::pow(xi_3 - 1, 7) + 165*std::pow(xi_3 - 1, 5)*std::pow(2*xi_2 + xi_3 - 1, 2) - 3740*std::pow(xi_3 - 1, 4)*std::pow(2*xi_2 + xi_3 - 1, 3) + 2145*std::pow(xi_3 - 1, 3)*std::pow(2*xi_2 + xi_3 - 1, 4) + 6006*std::pow(xi_3 - 1, 2)*std::pow(2*xi_2 + xi_3 - 1, 5) - 5005*(xi_3 - 1)*std::pow(2*xi_2 + xi_3 - 1, 6))/std::pow(128*xi_3 - 128, 2);
  238 => (1/128)*(1848*xi_3 - 168)*(2*xi_1 + xi_2 + xi_3 - 1)*(154*xi_2*std::pow(xi_3 - 1, 7) - 924*std::pow(-xi_3 + 1, 6)*std::pow(-2*xi_2 - xi_3 + 1, 2) - 6006*std::pow(-xi_3 + 1, 2)*std::pow(-2*xi_2 - xi_3 + 1, 6) + 4862*(-xi_3 + 1)*std::pow(-2*xi_2 - xi_3 + 1, 7) + 98*std::pow(xi_3 - 1, 8) + 5005*std::pow(xi_3 - 1, 4)*std::pow(-2*xi_2 - xi_3 + 1, 4) + 3003*std::pow(xi_3 - 1, 3)*std::pow(-2*xi_2 - xi_3 + 1, 5))/(xi_3 - 1) + (1/128)*(756*xi_3 + 231*std::pow(2*xi_3 - 1, 2) - 227)*(2*xi_1 + xi_2 + xi_3 - 1)*(1078*xi_2*std::pow(xi_3 - 1, 6) - 924*std::pow(-xi_3 + 1, 6)*(4*xi_2 + 2*xi_3 - 2) + 5544*std::pow(-xi_3 + 1, 5)*std::pow(-2*xi_2 - xi_3 + 1, 2) + 36036*std::pow(-xi_3 + 1, 2)*std::pow(-2*xi_2 - xi_3 + 1, 5) - 34034*(-xi_3 + 1)*std::pow(-2*xi_2 - xi_3 + 1, 6) + 784*std::pow(xi_3 - 1, 7) - 20020*std::pow(xi_3 - 1, 4)*std::pow(-2*xi_2 - xi_3 + 1, 3) + 5005*std::pow(xi_3 - 1, 3)*std::pow(-2*xi_2 - xi_3 + 1, 4) + 9009*std::pow(xi_3 - 1, 2)*std::pow(-2*xi_2 - xi_3 + 1, 5) - 6006*(2*xi_3 - 2)*std::pow(-2*xi_2 - xi_3 + 1, 6) - 4862*std::pow(-2*xi_2 - xi_3 + 1, 7))/(xi_3 - 1) + (1/128)*(756*xi_3 + 231*std::pow(2*xi_3 - 1, 2) - 227)*(154*xi_2*std::pow(xi_3 - 1, 7) - 924*std::pow(-xi_3 + 1, 6)*std::pow(-2*xi_2 - xi_3 + 1, 2) - 6006*std::pow(-xi_3 + 1, 2)*std::pow(-2*xi_2 - xi_3 + 1, 6) + 4862*(-xi_3 + 1)*std::pow(-2*xi_2 - xi_3 + 1, 7) + 98*std::pow(xi_3 - 1, 8) + 5005*std::pow(xi_3 - 1, 4)*std::pow(-2*xi_2 - xi_3 + 1, 4) + 3003*std::pow(xi_3 - 1, 3)*std::pow(-2*xi_2 - xi_3 + 1, 5))/(xi_3 - 1) - 1/128*(756*xi_3 + 231*std::pow(2*xi_3 - 1, 2) - 227)*(2*xi_1 + xi_2 + xi_3 - 1)*(154*xi_2*std::pow(xi_3 - 1, 7) - 924*std::pow(-xi_3 + 1, 6)*std::pow(-2*xi_2 - xi_3 + 1, 2) - 6006*std::pow(-xi_3 + 1, 2)*std::pow(-2*xi_2 - xi_3 + 1, 6) + 4862*(-xi_3 + 1)*std::pow(-2*xi_2 - xi_3 + 1, 7) + 98*std::pow(xi_3 - 1, 8) + 5005*std::pow(xi_3 - 1, 4)*std::pow(-2*xi_2 - xi_3 + 1, 4) + 3003*std::pow(xi_3 - 1, 3)*std::pow(-2*xi_2 - xi_3 + 1, 5))/std::pow(xi_3 - 1, 2);
  239 => (1/128)*(22*xi_3 - 1)*(2*xi_1 + xi_2 + xi_3 - 1)*(11760*xi_2*std::pow(xi_3 - 1, 6) + 41496*std::pow(-xi_3 + 1, 5)*std::pow(2*xi_2 + xi_3 - 1, 2) - 69160*std::pow(-xi_3 + 1, 4)*std::pow(2*xi_2 + xi_3 - 1, 3) - 185640*std::pow(-xi_3 + 1, 2)*std::pow(2*xi_2 + xi_3 - 1, 5) + 334152*(-xi_3 + 1)*std::pow(2*xi_2 + xi_3 - 1, 6) + 6328*std::pow(xi_3 - 1, 7) + 1092*std::pow(xi_3 - 1, 6)*(4*xi_2 + 2*xi_3 - 2) + 6552*std::pow(xi_3 - 1, 5)*std::pow(2*xi_2 + xi_3 - 1, 2) + 10920*std::pow(xi_3 - 1, 4)*std::pow(2*xi_2 + xi_3 - 1, 3) + 262080*std::pow(xi_3 - 1, 3)*std::pow(2*xi_2 + xi_3 - 1, 4) + 150696*std::pow(xi_3 - 1, 2)*std::pow(2*xi_2 + xi_3 - 1, 5) - 30940*(2*xi_3 - 2)*std::pow(2*xi_2 + xi_3 - 1, 6) + 254592*std::pow(2*xi_2 + xi_3 - 1, 7)) + (1/128)*(22*xi_3 - 1)*(1680*xi_2*std::pow(xi_3 - 1, 7) + 13832*std::pow(-xi_3 + 1, 5)*std::pow(2*xi_2 + xi_3 - 1, 3) - 30940*std::pow(-xi_3 + 1, 2)*std::pow(2*xi_2 + xi_3 - 1, 6) + 47736*(-xi_3 + 1)*std::pow(2*xi_2 + xi_3 - 1, 7) + 791*std::pow(xi_3 - 1, 8) + 1092*std::pow(xi_3 - 1, 6)*std::pow(2*xi_2 + xi_3 - 1, 2) + 2730*std::pow(xi_3 - 1, 4)*std::pow(2*xi_2 + xi_3 - 1, 4) + 50232*std::pow(xi_3 - 1, 3)*std::pow(2*xi_2 + xi_3 - 1, 5) + 37791*std::pow(2*xi_2 + xi_3 - 1, 8)) + (11/64)*(2*xi_1 + xi_2 + xi_3 - 1)*(1680*xi_2*std::pow(xi_3 - 1, 7) + 13832*std::pow(-xi_3 + 1, 5)*std::pow(2*xi_2 + xi_3 - 1, 3) - 30940*std::pow(-xi_3 + 1, 2)*std::pow(2*xi_2 + xi_3 - 1, 6) + 47736*(-xi_3 + 1)*std::pow(2*xi_2 + xi_3 - 1, 7) + 791*std::pow(xi_3 - 1, 8) + 1092*std::pow(xi_3 - 1, 6)*std::pow(2*xi_2 + xi_3 - 1, 2) + 2730*std::pow(xi_3 - 1, 4)*std::pow(2*xi_2 + xi_3 - 1, 4) + 50232*std::pow(xi_3 - 1, 3)*std::pow(2*xi_2 + xi_3 - 1, 5) + 37791*std::pow(2*xi_2 + xi_3 - 1, 8));
  240 => -(2*xi_1 + xi_2 + xi_3 - 1)*(14742*xi_2*std::pow(xi_3 - 1, 8) + 9660*std::pow(xi_3 - 1, 9) - 9828*std::pow(xi_3 - 1, 8)*(4*xi_2 + 2*xi_3 - 2) - 95004*std::pow(xi_3 - 1, 7)*std::pow(2*xi_2 + xi_3 - 1, 2) + 322140*std::pow(xi_3 - 1, 6)*std::pow(2*xi_2 + xi_3 - 1, 3) + 401310*std::pow(xi_3 - 1, 5)*std::pow(2*xi_2 + xi_3 - 1, 4) - 1587222*std::pow(xi_3 - 1, 4)*std::pow(2*xi_2 + xi_3 - 1, 5) + 92820*std::pow(xi_3 - 1, 3)*std::pow(2*xi_2 + xi_3 - 1, 6) + 1965132*std::pow(xi_3 - 1, 2)*std::pow(2*xi_2 + xi_3 - 1, 7) - 1322685*(xi_3 - 1)*std::pow(2*xi_2 + xi_3 - 1, 8) + 188955*(2*xi_3 - 2)*std::pow(2*xi_2 + xi_3 - 1, 8) - 146965*std::pow(2*xi_2 + xi_3 - 1, 9))/(256*xi_3 - 256) - (1638*xi_2*std::pow(xi_3 - 1, 9) + 966*std::pow(xi_3 - 1, 10) - 9828*std::pow(xi_3 - 1, 8)*std::pow(2*xi_2 + xi_3 - 1, 2) - 5460*std::pow(xi_3 - 1, 7)*std::pow(2*xi_2 + xi_3 - 1, 3) + 90090*std::pow(xi_3 - 1, 6)*std::pow(2*xi_2 + xi_3 - 1, 4) - 27846*std::pow(xi_3 - 1, 5)*std::pow(2*xi_2 + xi_3 - 1, 5) - 241332*std::pow(xi_3 - 1, 4)*std::pow(2*xi_2 + xi_3 - 1, 6) + 151164*std::pow(xi_3 - 1, 3)*std::pow(2*xi_2 + xi_3 - 1, 7) + 188955*std::pow(xi_3 - 1, 2)*std::pow(2*xi_2 + xi_3 - 1, 8) - 146965*(xi_3 - 1)*std::pow(2*xi_2 + xi_3 - 1, 9))/(256*xi_3 - 256) + 256*(2*xi_1 + xi_2 + xi_3 - 1)*(1638*xi_2*std::pow(xi_3 - 1, 9) + 966*std::pow(xi_3 - 1, 10) - 9828*std::pow(xi_3 - 1, 8)*std::pow(2*xi_2 + xi_3 - 1, 2) - 5460*std::pow(xi_3 - 1, 7)*std::pow(2*xi_2 + xi_3 - 1, 3) + 90090*std::pow(xi_3 - 1, 6)*std::pow(2*xi_2 + xi_3 - 1, 4) - 27846*std::pow(xi_3 - 1, 5)*std::pow(2*xi_2 + xi_3 - 1, 5) - 241332*std::pow(xi_3 - 1, 4)*std::pow(2*xi_2 + xi_3 - 1, 6) + 151164*std::pow(xi_3 - 1, 3)*std::pow(2*xi_2 + xi_3 - 1, 7) + 188955*std::pow(xi_3 - 1, 2)*std::pow(2*xi_2 + xi_3 - 1, 8) - 146965*(xi_3 - 1)*std::pow(2*xi_2 + xi_3 - 1, 9))/std::pow(256*xi_3 - 256, 2);
  241 => (1/256)*(-std::pow(xi_2 + xi_3 - 1, 2) + 3*std::pow(2*xi_1 + xi_2 + xi_3 - 1, 2))*(117600*xi_3 + 2558160*std::pow(2*xi_3 - 1, 7) + 4883760*std::pow(2*xi_3 - 1, 6) + 1627920*std::pow(2*xi_3 - 1, 5) - 1627920*std::pow(2*xi_3 - 1, 4) - 942480*std::pow(2*xi_3 - 1, 3) + 28560*std::pow(2*xi_3 - 1, 2) - 56160) + (1/256)*(12*xi_1 + 4*xi_2 + 4*xi_3 - 4)*(2640*xi_3 + 159885*std::pow(2*xi_3 - 1, 8) + 348840*std::pow(2*xi_3 - 1, 7) + 135660*std::pow(2*xi_3 - 1, 6) - 162792*std::pow(2*xi_3 - 1, 5) - 117810*std::pow(2*xi_3 - 1, 4) + 4760*std::pow(2*xi_3 - 1, 3) + 14700*std::pow(2*xi_3 - 1, 2) - 1499);
  242 => (1/16)*(-std::pow(xi_2 + xi_3 - 1, 2) + 3*std::pow(2*xi_1 + xi_2 + xi_3 - 1, 2))*(7*xi_2 + xi_3 - 1)*(-11424*xi_3 + 149226*std::pow(2*xi_3 - 1, 6) + 325584*std::pow(2*xi_3 - 1, 5) + 203490*std::pow(2*xi_3 - 1, 4) - 32130*std::pow(2*xi_3 - 1, 2) + 5894) + (1/16)*(-std::pow(xi_2 + xi_3 - 1, 2) + 3*std::pow(2*xi_1 + xi_2 + xi_3 - 1, 2))*(182*xi_3 + 10659*std::pow(2*xi_3 - 1, 7) + 27132*std::pow(2*xi_3 - 1, 6) + 20349*std::pow(2*xi_3 - 1, 5) - 5355*std::pow(2*xi_3 - 1, 3) - 1428*std::pow(2*xi_3 - 1, 2) - 59) + (1/16)*(7*xi_2 + xi_3 - 1)*(12*xi_1 + 4*xi_2 + 4*xi_3 - 4)*(182*xi_3 + 10659*std::pow(2*xi_3 - 1, 7) + 27132*std::pow(2*xi_3 - 1, 6) + 20349*std::pow(2*xi_3 - 1, 5) - 5355*std::pow(2*xi_3 - 1, 3) - 1428*std::pow(2*xi_3 - 1, 2) - 59);
  243 => (std::pow(xi_2 + xi_3 - 1, 2) - 3*std::pow(2*xi_1 + xi_2 + xi_3 - 1, 2))*(20*xi_2*std::pow(xi_3 - 1, 2) + 8*std::pow(xi_3 - 1, 3) - 9*(xi_3 - 1)*std::pow(2*xi_2 + xi_3 - 1, 2))*(-55080*xi_3 + 895356*std::pow(2*xi_3 - 1, 5) + 2034900*std::pow(2*xi_3 - 1, 4) + 1511640*std::pow(2*xi_3 - 1, 3) + 348840*std::pow(2*xi_3 - 1, 2) + 16728)/(128*xi_3 - 128) + (std::pow(xi_2 + xi_3 - 1, 2) - 3*std::pow(2*xi_1 + xi_2 + xi_3 - 1, 2))*(20*xi_2*(2*xi_3 - 2) + 24*std::pow(xi_3 - 1, 2) - 9*(xi_3 - 1)*(4*xi_2 + 2*xi_3 - 2) - 9*std::pow(2*xi_2 + xi_3 - 1, 2))*(-10812*xi_3 + 74613*std::pow(2*xi_3 - 1, 6) + 203490*std::pow(2*xi_3 - 1, 5) + 188955*std::pow(2*xi_3 - 1, 4) + 58140*std::pow(2*xi_3 - 1, 3) - 6885*std::pow(2*xi_3 - 1, 2) + 5011)/(128*xi_3 - 128) + (20*xi_2*std::pow(xi_3 - 1, 2) + 8*std::pow(xi_3 - 1, 3) - 9*(xi_3 - 1)*std::pow(2*xi_2 + xi_3 - 1, 2))*(-12*xi_1 - 4*xi_2 - 4*xi_3 + 4)*(-10812*xi_3 + 74613*std::pow(2*xi_3 - 1, 6) + 203490*std::pow(2*xi_3 - 1, 5) + 188955*std::pow(2*xi_3 - 1, 4) + 58140*std::pow(2*xi_3 - 1, 3) - 6885*std::pow(2*xi_3 - 1, 2) + 5011)/(128*xi_3 - 128) - 128*(std::pow(xi_2 + xi_3 - 1, 2) - 3*std::pow(2*xi_1 + xi_2 + xi_3 - 1, 2))*(20*xi_2*std::pow(xi_3 - 1, 2) + 8*std::pow(xi_3 - 1, 3) - 9*(xi_3 - 1)*std::pow(2*xi_2 + xi_3 - 1, 2))*(-10812*xi_3 + 74613*std::pow(2*xi_3 - 1, 6) + 203490*std::pow(2*xi_3 - 1, 5) + 188955*std::pow(2*xi_3 - 1, 4) + 58140*std::pow(2*xi_3 - 1, 3) - 6885*std::pow(2*xi_3 - 1, 2) + 5011)/std::pow(128*xi_3 - 128, 2);
  244 => (1/256)*(-std::pow(xi_2 + xi_3 - 1, 2) + 3*std::pow(2*xi_1 + xi_2 + xi_3 - 1, 2))*(126*xi_2*std::pow(xi_3 - 1, 3) - 225*std::pow(-xi_3 + 1, 2)*std::pow(-2*xi_2 - xi_3 + 1, 2) + 165*(-xi_3 + 1)*std::pow(-2*xi_2 - xi_3 + 1, 3) + 68*std::pow(xi_3 - 1, 4))*(109440*xi_3 + 131670*std::pow(2*xi_3 - 1, 4) + 287280*std::pow(2*xi_3 - 1, 3) + 208620*std::pow(2*xi_3 - 1, 2) - 51570)/(xi_3 - 1) + (1/256)*(-std::pow(xi_2 + xi_3 - 1, 2) + 3*std::pow(2*xi_1 + xi_2 + xi_3 - 1, 2))*(3150*xi_3 + 13167*std::pow(2*xi_3 - 1, 5) + 35910*std::pow(2*xi_3 - 1, 4) + 34770*std::pow(2*xi_3 - 1, 3) + 13680*std::pow(2*xi_3 - 1, 2) - 1669)*(378*xi_2*std::pow(xi_3 - 1, 2) - 225*std::pow(-xi_3 + 1, 2)*(4*xi_2 + 2*xi_3 - 2) - 495*(-xi_3 + 1)*std::pow(-2*xi_2 - xi_3 + 1, 2) + 272*std::pow(xi_3 - 1, 3) - 225*(2*xi_3 - 2)*std::pow(-2*xi_2 - xi_3 + 1, 2) - 165*std::pow(-2*xi_2 - xi_3 + 1, 3))/(xi_3 - 1) + (1/256)*(12*xi_1 + 4*xi_2 + 4*xi_3 - 4)*(126*xi_2*std::pow(xi_3 - 1, 3) - 225*std::pow(-xi_3 + 1, 2)*std::pow(-2*xi_2 - xi_3 + 1, 2) + 165*(-xi_3 + 1)*std::pow(-2*xi_2 - xi_3 + 1, 3) + 68*std::pow(xi_3 - 1, 4))*(3150*xi_3 + 13167*std::pow(2*xi_3 - 1, 5) + 35910*std::pow(2*xi_3 - 1, 4) + 34770*std::pow(2*xi_3 - 1, 3) + 13680*std::pow(2*xi_3 - 1, 2) - 1669)/(xi_3 - 1) - 1/256*(-std::pow(xi_2 + xi_3 - 1, 2) + 3*std::pow(2*xi_1 + xi_2 + xi_3 - 1, 2))*(126*xi_2*std::pow(xi_3 - 1, 3) - 225*std::pow(-xi_3 + 1, 2)*std::pow(-2*xi_2 - xi_3 + 1, 2) + 165*(-xi_3 + 1)*std::pow(-2*xi_2 - xi_3 + 1, 3) + 68*std::pow(xi_3 - 1, 4))*(3150*xi_3 + 13167*std::pow(2*xi_3 - 1, 5) + 35910*std::pow(2*xi_3 - 1, 4) + 34770*std::pow(2*xi_3 - 1, 3) + 13680*std::pow(2*xi_3 - 1, 2) - 1669)/std::pow(xi_3 - 1, 2);
  245 => (1/512)*(-std::pow(xi_2 + xi_3 - 1, 2) + 3*std::pow(2*xi_1 + xi_2 + xi_3 - 1, 2))*(132240*xi_3 + 58520*std::pow(2*xi_3 - 1, 3) + 111720*std::pow(2*xi_3 - 1, 2) - 54416)*(200*xi_2*std::pow(xi_3 - 1, 3) + 71*std::pow(xi_3 - 1, 4) + 330*std::pow(xi_3 - 1, 2)*std::pow(2*xi_2 + xi_3 - 1, 2) - 1100*(xi_3 - 1)*std::pow(2*xi_2 + xi_3 - 1, 3) + 715*std::pow(2*xi_2 + xi_3 - 1, 4)) + (1/512)*(-std::pow(xi_2 + xi_3 - 1, 2) + 3*std::pow(2*xi_1 + xi_2 + xi_3 - 1, 2))*(11704*xi_3 + 7315*std::pow(2*xi_3 - 1, 4) + 18620*std::pow(2*xi_3 - 1, 3) + 16530*std::pow(2*xi_3 - 1, 2) - 5209)*(600*xi_2*std::pow(xi_3 - 1, 2) + 284*std::pow(xi_3 - 1, 3) + 330*std::pow(xi_3 - 1, 2)*(4*xi_2 + 2*xi_3 - 2) - 3300*(xi_3 - 1)*std::pow(2*xi_2 + xi_3 - 1, 2) + 330*(2*xi_3 - 2)*std::pow(2*xi_2 + xi_3 - 1, 2) + 1760*std::pow(2*xi_2 + xi_3 - 1, 3)) + (1/512)*(12*xi_1 + 4*xi_2 + 4*xi_3 - 4)*(11704*xi_3 + 7315*std::pow(2*xi_3 - 1, 4) + 18620*std::pow(2*xi_3 - 1, 3) + 16530*std::pow(2*xi_3 - 1, 2) - 5209)*(200*xi_2*std::pow(xi_3 - 1, 3) + 71*std::pow(xi_3 - 1, 4) + 330*std::pow(xi_3 - 1, 2)*std::pow(2*xi_2 + xi_3 - 1, 2) - 1100*(xi_3 - 1)*std::pow(2*xi_2 + xi_3 - 1, 3) + 715*std::pow(2*xi_2 + xi_3 - 1, 4));
  246 => (std::pow(xi_2 + xi_3 - 1, 2) - 3*std::pow(2*xi_1 + xi_2 + xi_3 - 1, 2))*(6720*xi_3 + 2310*std::pow(2*xi_3 - 1, 2) - 2190)*(770*xi_2*std::pow(xi_3 - 1, 5) + 386*std::pow(xi_3 - 1, 6) - 990*std::pow(xi_3 - 1, 4)*std::pow(2*xi_2 + xi_3 - 1, 2) - 1430*std::pow(xi_3 - 1, 3)*std::pow(2*xi_2 + xi_3 - 1, 3) + 5005*std::pow(xi_3 - 1, 2)*std::pow(2*xi_2 + xi_3 - 1, 4) - 3003*(xi_3 - 1)*std::pow(2*xi_2 + xi_3 - 1, 5))/(128*xi_3 - 128) + (std::pow(xi_2 + xi_3 - 1, 2) - 3*std::pow(2*xi_1 + xi_2 + xi_3 - 1, 2))*(1170*xi_3 + 385*std::pow(2*xi_3 - 1, 3) + 840*std::pow(2*xi_3 - 1, 2) - 457)*(3850*xi_2*std::pow(xi_3 - 1, 4) + 2316*std::pow(xi_3 - 1, 5) - 990*std::pow(xi_3 - 1, 4)*(4*xi_2 + 2*xi_3 - 2) - 8250*std::pow(xi_3 - 1, 3)*std::pow(2*xi_2 + xi_3 - 1, 2) + 15730*std::pow(xi_3 - 1, 2)*std::pow(2*xi_2 + xi_3 - 1, 3) - 15015*(xi_3 - 1)*std::pow(2*xi_2 + xi_3 - 1, 4) + 5005*(2*xi_3 - 2)*std::pow(2*xi_2 + xi_3 - 1, 4) - 3003*std::pow(2*xi_2 + xi_3 - 1, 5))/(128*xi_3 - 128) + (-12*xi_1 - 4*xi_2 - 4*xi_3 + 4)*(1170*xi_3 + 385*std::pow(2*xi_3 - 1, 3) + 840*std::pow(2*xi_3 - 1, 2) - 457)*(770*xi_2*std::pow(xi_3 - 1, 5) + 386*std::pow(xi_3 - 1, 6) - 990*std::pow(xi_3 - 1, 4)*std::pow(2*xi_2 + xi_3 - 1, 2) - 1430*std::pow(xi_3 - 1, 3)*std::pow(2*xi_2 + xi_3 - 1, 3) + 5005*std::pow(xi_3 - 1, 2)*std::pow(2*xi_2 + xi_3 - 1, 4) - 3003*(xi_3 - 1)*std::pow(2*xi_2 + xi_3 - 1, 5))/(128*xi_3 - 128) - 128*(std::pow(xi_2 + xi_3 - 1, 2) - 3*std::pow(2*xi_1 + xi_2 + xi_3 - 1, 2))*(1170*xi_3 + 385*std::pow(2*xi_3 - 1, 3) + 840*std::pow(2*xi_3 - 1, 2) - 457)*(770*xi_2*std::pow(xi_3 - 1, 5) + 386*std::pow(xi_3 - 1, 6) - 990*std::pow(xi_3 - 1, 4)*std::pow(2*xi_2 + xi_3 - 1, 2) - 1430*std::pow(xi_3 - 1, 3)*std::pow(2*xi_2 + xi_3 - 1, 3) + 5005*std::pow(xi_3 - 1, 2)*std::pow(2*xi_2 + xi_3 - 1, 4) - 3003*(xi_3 - 1)*std::pow(2*xi_2 + xi_3 - 1, 5))/std::pow(128*xi_3 - 128, 2);
  247 => (1/128)*(1848*xi_3 - 168)*(std::pow(xi_2 + xi_3 - 1, 2) - 3*std::pow(2*xi_1 + xi_2 + xi_3 - 1, 2))*(96*xi_2*std::pow(xi_3 - 1, 5) + 23*std::pow(xi_3 - 1, 6) + 780*std::pow(xi_3 - 1, 4)*std::pow(2*xi_2 + xi_3 - 1, 2) - 1820*std::pow(xi_3 - 1, 3)*std::pow(2*xi_2 + xi_3 - 1, 3) - 1365*std::pow(xi_3 - 1, 2)*std::pow(2*xi_2 + xi_3 - 1, 4) + 5460*(xi_3 - 1)*std::pow(2*xi_2 + xi_3 - 1, 5) - 3094*std::pow(2*xi_2 + xi_3 - 1, 6)) + (1/128)*(std::pow(xi_2 + xi_3 - 1, 2) - 3*std::pow(2*xi_1 + xi_2 + xi_3 - 1, 2))*(756*xi_3 + 231*std::pow(2*xi_3 - 1, 2) - 227)*(480*xi_2*std::pow(xi_3 - 1, 4) + 138*std::pow(xi_3 - 1, 5) + 780*std::pow(xi_3 - 1, 4)*(4*xi_2 + 2*xi_3 - 2) - 2340*std::pow(xi_3 - 1, 3)*std::pow(2*xi_2 + xi_3 - 1, 2) - 10920*std::pow(xi_3 - 1, 2)*std::pow(2*xi_2 + xi_3 - 1, 3) + 27300*(xi_3 - 1)*std::pow(2*xi_2 + xi_3 - 1, 4) - 1365*(2*xi_3 - 2)*std::pow(2*xi_2 + xi_3 - 1, 4) - 13104*std::pow(2*xi_2 + xi_3 - 1, 5)) + (1/128)*(756*xi_3 + 231*std::pow(2*xi_3 - 1, 2) - 227)*(-12*xi_1 - 4*xi_2 - 4*xi_3 + 4)*(96*xi_2*std::pow(xi_3 - 1, 5) + 23*std::pow(xi_3 - 1, 6) + 780*std::pow(xi_3 - 1, 4)*std::pow(2*xi_2 + xi_3 - 1, 2) - 1820*std::pow(xi_3 - 1, 3)*std::pow(2*xi_2 + xi_3 - 1, 3) - 1365*std::pow(xi_3 - 1, 2)*std::pow(2*xi_2 + xi_3 - 1, 4) + 5460*(xi_3 - 1)*std::pow(2*xi_2 + xi_3 - 1, 5) - 3094*std::pow(2*xi_2 + xi_3 - 1, 6));
  248 => (1/64)*(22*xi_3 - 1)*(-std::pow(xi_2 + xi_3 - 1, 2) + 3*std::pow(2*xi_1 + xi_2 + xi_3 - 1, 2))*(6370*xi_2*std::pow(xi_3 - 1, 6) - 819*std::pow(-xi_3 + 1, 6)*(4*xi_2 + 2*xi_3 - 2) + 4914*std::pow(-xi_3 + 1, 5)*std::pow(-2*xi_2 - xi_3 + 1, 2) - 23205*std::pow(-xi_3 + 1, 3)*std::pow(-2*xi_2 - xi_3 + 1, 4) + 125307*std::pow(-xi_3 + 1, 2)*std::pow(-2*xi_2 - xi_3 + 1, 5) - 88179*(-xi_3 + 1)*std::pow(-2*xi_2 - xi_3 + 1, 6) + 3584*std::pow(xi_3 - 1, 7) - 15015*std::pow(xi_3 - 1, 5)*std::pow(-2*xi_2 - xi_3 + 1, 2) - 20475*std::pow(xi_3 - 1, 4)*std::pow(-2*xi_2 - xi_3 + 1, 3) + 45500*std::pow(xi_3 - 1, 3)*std::pow(-2*xi_2 - xi_3 + 1, 4) - 23205*(2*xi_3 - 2)*std::pow(-2*xi_2 - xi_3 + 1, 6) - 12597*std::pow(-2*xi_2 - xi_3 + 1, 7))/(xi_3 - 1) + (1/64)*(22*xi_3 - 1)*(12*xi_1 + 4*xi_2 + 4*xi_3 - 4)*(910*xi_2*std::pow(xi_3 - 1, 7) - 819*std::pow(-xi_3 + 1, 6)*std::pow(-2*xi_2 - xi_3 + 1, 2) + 4641*std::pow(-xi_3 + 1, 3)*std::pow(-2*xi_2 - xi_3 + 1, 5) - 23205*std::pow(-xi_3 + 1, 2)*std::pow(-2*xi_2 - xi_3 + 1, 6) + 12597*(-xi_3 + 1)*std::pow(-2*xi_2 - xi_3 + 1, 7) + 448*std::pow(xi_3 - 1, 8) + 5005*std::pow(xi_3 - 1, 5)*std::pow(-2*xi_2 - xi_3 + 1, 3) + 11375*std::pow(xi_3 - 1, 4)*std::pow(-2*xi_2 - xi_3 + 1, 4))/(xi_3 - 1) + (11/32)*(-std::pow(xi_2 + xi_3 - 1, 2) + 3*std::pow(2*xi_1 + xi_2 + xi_3 - 1, 2))*(910*xi_2*std::pow(xi_3 - 1, 7) - 819*std::pow(-xi_3 + 1, 6)*std::pow(-2*xi_2 - xi_3 + 1, 2) + 4641*std::pow(-xi_3 + 1, 3)*std::pow(-2*xi_2 - xi_3 + 1, 5) - 23205*std::pow(-xi_3 + 1, 2)*std::pow(-2*xi_2 - xi_3 + 1, 6) + 12597*(-xi_3 + 1)*std::pow(-2*xi_2 - xi_3 + 1, 7) + 448*std::pow(xi_3 - 1, 8) + 5005*std::pow(xi_3 - 1, 5)*std::pow(-2*xi_2 - xi_3 + 1, 3) + 11375*std::pow(xi_3 - 1, 4)*std::pow(-2*xi_2 - xi_3 + 1, 4))/(xi_3 - 1) - 1/64*(22*xi_3 - 1)*(-std::pow(xi_2 + xi_3 - 1, 2) + 3*std::pow(2*xi_1 + xi_2 + xi_3 - 1, 2))*(910*xi_2*std::pow(xi_3 - 1, 7) - 819*std::pow(-xi_3 + 1, 6)*std::pow(-2*xi_2 - xi_3 + 1, 2) + 4641*std::pow(-xi_3 + 1, 3)*std::pow(-2*xi_2 - xi_3 + 1, 5) - 23205*std::pow(-xi_3 + 1, 2)*std::pow(-2*xi_2 - xi_3 + 1, 6) + 12597*(-xi_3 + 1)*std::pow(-2*xi_2 - xi_3 + 1, 7) + 448*std::pow(xi_3 - 1, 8) + 5005*std::pow(xi_3 - 1, 5)*std::pow(-2*xi_2 - xi_3 + 1, 3) + 11375*std::pow(xi_3 - 1, 4)*std::pow(-2*xi_2 - xi_3 + 1, 4))/std::pow(xi_3 - 1, 2);
  249 => (1/256)*(-std::pow(xi_2 + xi_3 - 1, 2) + 3*std::pow(2*xi_1 + xi_2 + xi_3 - 1, 2))*(784*xi_2*std::pow(xi_3 - 1, 6) + 952*std::pow(-xi_3 + 1, 7) + 51240*std::pow(-xi_3 + 1, 5)*std::pow(2*xi_2 + xi_3 - 1, 2) - 309120*std::pow(-xi_3 + 1, 4)*std::pow(2*xi_2 + xi_3 - 1, 3) + 223720*std::pow(-xi_3 + 1, 3)*std::pow(2*xi_2 + xi_3 - 1, 4) + 1356600*(-xi_3 + 1)*std::pow(2*xi_2 + xi_3 - 1, 6) + 9660*std::pow(xi_3 - 1, 6)*(4*xi_2 + 2*xi_3 - 2) + 57960*std::pow(xi_3 - 1, 5)*std::pow(2*xi_2 + xi_3 - 1, 2) + 642600*std::pow(xi_3 - 1, 3)*std::pow(2*xi_2 + xi_3 - 1, 4) + 548352*std::pow(xi_3 - 1, 2)*std::pow(2*xi_2 + xi_3 - 1, 5) + 27132*(2*xi_3 - 2)*std::pow(2*xi_2 + xi_3 - 1, 6) + 620160*std::pow(2*xi_2 + xi_3 - 1, 7)) + (1/256)*(12*xi_1 + 4*xi_2 + 4*xi_3 - 4)*(112*xi_2*std::pow(xi_3 - 1, 7) - 119*std::pow(-xi_3 + 1, 8) + 17080*std::pow(-xi_3 + 1, 5)*std::pow(2*xi_2 + xi_3 - 1, 3) - 55930*std::pow(-xi_3 + 1, 4)*std::pow(2*xi_2 + xi_3 - 1, 4) + 193800*(-xi_3 + 1)*std::pow(2*xi_2 + xi_3 - 1, 7) + 9660*std::pow(xi_3 - 1, 6)*std::pow(2*xi_2 + xi_3 - 1, 2) + 128520*std::pow(xi_3 - 1, 3)*std::pow(2*xi_2 + xi_3 - 1, 5) + 27132*std::pow(xi_3 - 1, 2)*std::pow(2*xi_2 + xi_3 - 1, 6) + 101745*std::pow(2*xi_2 + xi_3 - 1, 8));
  250 => -(6*xi_1*std::pow(xi_2 + xi_3 - 1, 3) + 3*std::pow(xi_2 + xi_3 - 1, 4) - 5*(xi_2 + xi_3 - 1)*std::pow(2*xi_1 + xi_2 + xi_3 - 1, 3))*(-11424*xi_3 + 149226*std::pow(2*xi_3 - 1, 6) + 325584*std::pow(2*xi_3 - 1, 5) + 203490*std::pow(2*xi_3 - 1, 4) - 32130*std::pow(2*xi_3 - 1, 2) + 5894)/(16*xi_2 + 16*xi_3 - 16) - (18*xi_1*std::pow(xi_2 + xi_3 - 1, 2) + 12*std::pow(xi_2 + xi_3 - 1, 3) - 15*(xi_2 + xi_3 - 1)*std::pow(2*xi_1 + xi_2 + xi_3 - 1, 2) - 5*std::pow(2*xi_1 + xi_2 + xi_3 - 1, 3))*(182*xi_3 + 10659*std::pow(2*xi_3 - 1, 7) + 27132*std::pow(2*xi_3 - 1, 6) + 20349*std::pow(2*xi_3 - 1, 5) - 5355*std::pow(2*xi_3 - 1, 3) - 1428*std::pow(2*xi_3 - 1, 2) - 59)/(16*xi_2 + 16*xi_3 - 16) + 16*(6*xi_1*std::pow(xi_2 + xi_3 - 1, 3) + 3*std::pow(xi_2 + xi_3 - 1, 4) - 5*(xi_2 + xi_3 - 1)*std::pow(2*xi_1 + xi_2 + xi_3 - 1, 3))*(182*xi_3 + 10659*std::pow(2*xi_3 - 1, 7) + 27132*std::pow(2*xi_3 - 1, 6) + 20349*std::pow(2*xi_3 - 1, 5) - 5355*std::pow(2*xi_3 - 1, 3) - 1428*std::pow(2*xi_3 - 1, 2) - 59)/std::pow(16*xi_2 + 16*xi_3 - 16, 2);
  251 => (1/128)*(9*xi_2 + xi_3 - 1)*(6*xi_1*std::pow(xi_2 + xi_3 - 1, 3) + 5*(-xi_2 - xi_3 + 1)*std::pow(2*xi_1 + xi_2 + xi_3 - 1, 3) + 3*std::pow(xi_2 + xi_3 - 1, 4))*(-55080*xi_3 + 895356*std::pow(2*xi_3 - 1, 5) + 2034900*std::pow(2*xi_3 - 1, 4) + 1511640*std::pow(2*xi_3 - 1, 3) + 348840*std::pow(2*xi_3 - 1, 2) + 16728)/(-xi_2 - xi_3 + 1) + (1/128)*(9*xi_2 + xi_3 - 1)*(18*xi_1*std::pow(xi_2 + xi_3 - 1, 2) + 15*(-xi_2 - xi_3 + 1)*std::pow(2*xi_1 + xi_2 + xi_3 - 1, 2) + 12*std::pow(xi_2 + xi_3 - 1, 3) - 5*std::pow(2*xi_1 + xi_2 + xi_3 - 1, 3))*(-10812*xi_3 + 74613*std::pow(2*xi_3 - 1, 6) + 203490*std::pow(2*xi_3 - 1, 5) + 188955*std::pow(2*xi_3 - 1, 4) + 58140*std::pow(2*xi_3 - 1, 3) - 6885*std::pow(2*xi_3 - 1, 2) + 5011)/(-xi_2 - xi_3 + 1) + (1/128)*(6*xi_1*std::pow(xi_2 + xi_3 - 1, 3) + 5*(-xi_2 - xi_3 + 1)*std::pow(2*xi_1 + xi_2 + xi_3 - 1, 3) + 3*std::pow(xi_2 + xi_3 - 1, 4))*(-10812*xi_3 + 74613*std::pow(2*xi_3 - 1, 6) + 203490*std::pow(2*xi_3 - 1, 5) + 188955*std::pow(2*xi_3 - 1, 4) + 58140*std::pow(2*xi_3 - 1, 3) - 6885*std::pow(2*xi_3 - 1, 2) + 5011)/(-xi_2 - xi_3 + 1) + (1/128)*(9*xi_2 + xi_3 - 1)*(6*xi_1*std::pow(xi_2 + xi_3 - 1, 3) + 5*(-xi_2 - xi_3 + 1)*std::pow(2*xi_1 + xi_2 + xi_3 - 1, 3) + 3*std::pow(xi_2 + xi_3 - 1, 4))*(-10812*xi_3 + 74613*std::pow(2*xi_3 - 1, 6) + 203490*std::pow(2*xi_3 - 1, 5) + 188955*std::pow(2*xi_3 - 1, 4) + 58140*std::pow(2*xi_3 - 1, 3) - 6885*std::pow(2*xi_3 - 1, 2) + 5011)/std::pow(-xi_2 - xi_3 + 1, 2);
  252 => (1/128)*(6*xi_1*std::pow(xi_2 + xi_3 - 1, 3) + 5*(-xi_2 - xi_3 + 1)*std::pow(2*xi_1 + xi_2 + xi_3 - 1, 3) + 3*std::pow(xi_2 + xi_3 - 1, 4))*(140*xi_2*std::pow(xi_3 - 1, 2) + 55*(-xi_3 + 1)*std::pow(-2*xi_2 - xi_3 + 1, 2) + 51*std::pow(xi_3 - 1, 3))*(109440*xi_3 + 131670*std::pow(2*xi_3 - 1, 4) + 287280*std::pow(2*xi_3 - 1, 3) + 208620*std::pow(2*xi_3 - 1, 2) - 51570)/((xi_3 - 1)*(xi_2 + xi_3 - 1)) + (1/128)*(6*xi_1*std::pow(xi_2 + xi_3 - 1, 3) + 5*(-xi_2 - xi_3 + 1)*std::pow(2*xi_1 + xi_2 + xi_3 - 1, 3) + 3*std::pow(xi_2 + xi_3 - 1, 4))*(140*xi_2*(2*xi_3 - 2) + 55*(-xi_3 + 1)*(4*xi_2 + 2*xi_3 - 2) + 153*std::pow(xi_3 - 1, 2) - 55*std::pow(-2*xi_2 - xi_3 + 1, 2))*(3150*xi_3 + 13167*std::pow(2*xi_3 - 1, 5) + 35910*std::pow(2*xi_3 - 1, 4) + 34770*std::pow(2*xi_3 - 1, 3) + 13680*std::pow(2*xi_3 - 1, 2) - 1669)/((xi_3 - 1)*(xi_2 + xi_3 - 1)) + (1/128)*(140*xi_2*std::pow(xi_3 - 1, 2) + 55*(-xi_3 + 1)*std::pow(-2*xi_2 - xi_3 + 1, 2) + 51*std::pow(xi_3 - 1, 3))*(18*xi_1*std::pow(xi_2 + xi_3 - 1, 2) + 15*(-xi_2 - xi_3 + 1)*std::pow(2*xi_1 + xi_2 + xi_3 - 1, 2) + 12*std::pow(xi_2 + xi_3 - 1, 3) - 5*std::pow(2*xi_1 + xi_2 + xi_3 - 1, 3))*(3150*xi_3 + 13167*std::pow(2*xi_3 - 1, 5) + 35910*std::pow(2*xi_3 - 1, 4) + 34770*std::pow(2*xi_3 - 1, 3) + 13680*std::pow(2*xi_3 - 1, 2) - 1669)/((xi_3 - 1)*(xi_2 + xi_3 - 1)) - 1/128*(6*xi_1*std::pow(xi_2 + xi_3 - 1, 3) + 5*(-xi_2 - xi_3 + 1)*std::pow(2*xi_1 + xi_2 + xi_3 - 1, 3) + 3*std::pow(xi_2 + xi_3 - 1, 4))*(140*xi_2*std::pow(xi_3 - 1, 2) + 55*(-xi_3 + 1)*std::pow(-2*xi_2 - xi_3 + 1, 2) + 51*std::pow(xi_3 - 1, 3))*(3150*xi_3 + 13167*std::pow(2*xi_3 - 1, 5) + 35910*std::pow(2*xi_3 - 1, 4) + 34770*std::pow(2*xi_3 - 1, 3) + 13680*std::pow(2*xi_3 - 1, 2) - 1669)/((xi_3 - 1)*std::pow(xi_2 + xi_3 - 1, 2)) - 1/128*(6*xi_1*std::pow(xi_2 + xi_3 - 1, 3) + 5*(-xi_2 - xi_3 + 1)*std::pow(2*xi_1 + xi_2 + xi_3 - 1, 3) + 3*std::pow(xi_2 + xi_3 - 1, 4))*(140*xi_2*std::pow(xi_3 - 1, 2) + 55*(-xi_3 + 1)*std::pow(-2*xi_2 - xi_3 + 1, 2) + 51*std::pow(xi_3 - 1, 3))*(3150*xi_3 + 13167*std::pow(2*xi_3 - 1, 5) + 35910*std::pow(2*xi_3 - 1, 4) + 34770*std::pow(2*xi_3 - 1, 3) + 13680*std::pow(2*xi_3 - 1, 2) - 1669)/(std::pow(xi_3 - 1, 2)*(xi_2 + xi_3 - 1));
  253 => -(6*xi_1*std::pow(xi_2 + xi_3 - 1, 3) + 3*std::pow(xi_2 + xi_3 - 1, 4) - 5*(xi_2 + xi_3 - 1)*std::pow(2*xi_1 + xi_2 + xi_3 - 1, 3))*(132240*xi_3 + 58520*std::pow(2*xi_3 - 1, 3) + 111720*std::pow(2*xi_3 - 1, 2) - 54416)*(198*xi_2*std::pow(xi_3 - 1, 2) + 92*std::pow(xi_3 - 1, 3) - 231*(xi_3 - 1)*std::pow(2*xi_2 + xi_3 - 1, 2) + 143*std::pow(2*xi_2 + xi_3 - 1, 3))/(128*xi_2 + 128*xi_3 - 128) - (6*xi_1*std::pow(xi_2 + xi_3 - 1, 3) + 3*std::pow(xi_2 + xi_3 - 1, 4) - 5*(xi_2 + xi_3 - 1)*std::pow(2*xi_1 + xi_2 + xi_3 - 1, 3))*(198*xi_2*(2*xi_3 - 2) + 276*std::pow(xi_3 - 1, 2) - 231*(xi_3 - 1)*(4*xi_2 + 2*xi_3 - 2) + 198*std::pow(2*xi_2 + xi_3 - 1, 2))*(11704*xi_3 + 7315*std::pow(2*xi_3 - 1, 4) + 18620*std::pow(2*xi_3 - 1, 3) + 16530*std::pow(2*xi_3 - 1, 2) - 5209)/(128*xi_2 + 128*xi_3 - 128) - (18*xi_1*std::pow(xi_2 + xi_3 - 1, 2) + 12*std::pow(xi_2 + xi_3 - 1, 3) - 15*(xi_2 + xi_3 - 1)*std::pow(2*xi_1 + xi_2 + xi_3 - 1, 2) - 5*std::pow(2*xi_1 + xi_2 + xi_3 - 1, 3))*(198*xi_2*std::pow(xi_3 - 1, 2) + 92*std::pow(xi_3 - 1, 3) - 231*(xi_3 - 1)*std::pow(2*xi_2 + xi_3 - 1, 2) + 143*std::pow(2*xi_2 + xi_3 - 1, 3))*(11704*xi_3 + 7315*std::pow(2*xi_3 - 1, 4) + 18620*std::pow(2*xi_3 - 1, 3) + 16530*std::pow(2*xi_3 - 1, 2) - 5209)/(128*xi_2 + 128*xi_3 - 128) + 128*(6*xi_1*std::pow(xi_2 + xi_3 - 1, 3) + 3*std::pow(xi_2 + xi_3 - 1, 4) - 5*(xi_2 + xi_3 - 1)*std::pow(2*xi_1 + xi_2 + xi_3 - 1, 3))*(198*xi_2*std::pow(xi_3 - 1, 2) + 92*std::pow(xi_3 - 1, 3) - 231*(xi_3 - 1)*std::pow(2*xi_2 + xi_3 - 1, 2) + 143*std::pow(2*xi_2 + xi_3 - 1, 3))*(11704*xi_3 + 7315*std::pow(2*xi_3 - 1, 4) + 18620*std::pow(2*xi_3 - 1, 3) + 16530*std::pow(2*xi_3 - 1, 2) - 5209)/std::pow(128*xi_2 + 128*xi_3 - 128, 2);
  254 => (6720*xi_3 + 2310*std::pow(2*xi_3 - 1, 2) - 2190)*(6*xi_1*std::pow(xi_2 + xi_3 - 1, 3) + 3*std::pow(xi_2 + xi_3 - 1, 4) - 5*(xi_2 + xi_3 - 1)*std::pow(2*xi_1 + xi_2 + xi_3 - 1, 3))*(168*xi_2*std::pow(xi_3 - 1, 3) + 127*std::pow(xi_3 - 1, 4) - 1326*std::pow(xi_3 - 1, 2)*std::pow(2*xi_2 + xi_3 - 1, 2) + 2548*(xi_3 - 1)*std::pow(2*xi_2 + xi_3 - 1, 3) - 1365*std::pow(2*xi_2 + xi_3 - 1, 4))/(64*xi_2 + 64*xi_3 - 64) + (6*xi_1*std::pow(xi_2 + xi_3 - 1, 3) + 3*std::pow(xi_2 + xi_3 - 1, 4) - 5*(xi_2 + xi_3 - 1)*std::pow(2*xi_1 + xi_2 + xi_3 - 1, 3))*(1170*xi_3 + 385*std::pow(2*xi_3 - 1, 3) + 840*std::pow(2*xi_3 - 1, 2) - 457)*(504*xi_2*std::pow(xi_3 - 1, 2) + 508*std::pow(xi_3 - 1, 3) - 1326*std::pow(xi_3 - 1, 2)*(4*xi_2 + 2*xi_3 - 2) + 7644*(xi_3 - 1)*std::pow(2*xi_2 + xi_3 - 1, 2) - 1326*(2*xi_3 - 2)*std::pow(2*xi_2 + xi_3 - 1, 2) - 2912*std::pow(2*xi_2 + xi_3 - 1, 3))/(64*xi_2 + 64*xi_3 - 64) + (1170*xi_3 + 385*std::pow(2*xi_3 - 1, 3) + 840*std::pow(2*xi_3 - 1, 2) - 457)*(18*xi_1*std::pow(xi_2 + xi_3 - 1, 2) + 12*std::pow(xi_2 + xi_3 - 1, 3) - 15*(xi_2 + xi_3 - 1)*std::pow(2*xi_1 + xi_2 + xi_3 - 1, 2) - 5*std::pow(2*xi_1 + xi_2 + xi_3 - 1, 3))*(168*xi_2*std::pow(xi_3 - 1, 3) + 127*std::pow(xi_3 - 1, 4) - 1326*std::pow(xi_3 - 1, 2)*std::pow(2*xi_2 + xi_3 - 1, 2) + 2548*(xi_3 - 1)*std::pow(2*xi_2 + xi_3 - 1, 3) - 1365*std::pow(2*xi_2 + xi_3 - 1, 4))/(64*xi_2 + 64*xi_3 - 64) - 64*(6*xi_1*std::pow(xi_2 + xi_3 - 1, 3) + 3*std::pow(xi_2 + xi_3 - 1, 4) - 5*(xi_2 + xi_3 - 1)*std::pow(2*xi_1 + xi_2 + xi_3 - 1, 3))*(1170*xi_3 + 385*std::pow(2*xi_3 - 1, 3) + 840*std::pow(2*xi_3 - 1, 2) - 457)*(168*xi_2*std::pow(xi_3 - 1, 3) + 127*std::pow(xi_3 - 1, 4) - 1326*std::pow(xi_3 - 1, 2)*std::pow(2*xi_2 + xi_3 - 1, 2) + 2548*(xi_3 - 1)*std::pow(2*xi_2 + xi_3 - 1, 3) - 1365*std::pow(2*xi_2 + xi_3 - 1, 4))/std::pow(64*xi_2 + 64*xi_3 - 64, 2);
  255 => (1/64)*(1848*xi_3 - 168)*(6*xi_1*std::pow(xi_2 + xi_3 - 1, 3) + 5*(-xi_2 - xi_3 + 1)*std::pow(2*xi_1 + xi_2 + xi_3 - 1, 3) + 3*std::pow(xi_2 + xi_3 - 1, 4))*(390*xi_2*std::pow(xi_3 - 1, 5) + 1820*std::pow(-xi_3 + 1, 3)*std::pow(2*xi_2 + xi_3 - 1, 3) + 1547*(-xi_3 + 1)*std::pow(2*xi_2 + xi_3 - 1, 5) + 174*std::pow(xi_3 - 1, 6) + 3185*std::pow(xi_3 - 1, 2)*std::pow(2*xi_2 + xi_3 - 1, 4))/((xi_3 - 1)*(xi_2 + xi_3 - 1)) + (1/64)*(756*xi_3 + 231*std::pow(2*xi_3 - 1, 2) - 227)*(6*xi_1*std::pow(xi_2 + xi_3 - 1, 3) + 5*(-xi_2 - xi_3 + 1)*std::pow(2*xi_1 + xi_2 + xi_3 - 1, 3) + 3*std::pow(xi_2 + xi_3 - 1, 4))*(1950*xi_2*std::pow(xi_3 - 1, 4) + 5460*std::pow(-xi_3 + 1, 3)*std::pow(2*xi_2 + xi_3 - 1, 2) - 5460*std::pow(-xi_3 + 1, 2)*std::pow(2*xi_2 + xi_3 - 1, 3) + 7735*(-xi_3 + 1)*std::pow(2*xi_2 + xi_3 - 1, 4) + 1044*std::pow(xi_3 - 1, 5) + 12740*std::pow(xi_3 - 1, 2)*std::pow(2*xi_2 + xi_3 - 1, 3) + 3185*(2*xi_3 - 2)*std::pow(2*xi_2 + xi_3 - 1, 4) - 1547*std::pow(2*xi_2 + xi_3 - 1, 5))/((xi_3 - 1)*(xi_2 + xi_3 - 1)) + (1/64)*(756*xi_3 + 231*std::pow(2*xi_3 - 1, 2) - 227)*(18*xi_1*std::pow(xi_2 + xi_3 - 1, 2) + 15*(-xi_2 - xi_3 + 1)*std::pow(2*xi_1 + xi_2 + xi_3 - 1, 2) + 12*std::pow(xi_2 + xi_3 - 1, 3) - 5*std::pow(2*xi_1 + xi_2 + xi_3 - 1, 3))*(390*xi_2*std::pow(xi_3 - 1, 5) + 1820*std::pow(-xi_3 + 1, 3)*std::pow(2*xi_2 + xi_3 - 1, 3) + 1547*(-xi_3 + 1)*std::pow(2*xi_2 + xi_3 - 1, 5) + 174*std::pow(xi_3 - 1, 6) + 3185*std::pow(xi_3 - 1, 2)*std::pow(2*xi_2 + xi_3 - 1, 4))/((xi_3 - 1)*(xi_2 + xi_3 - 1)) - 1/64*(756*xi_3 + 231*std::pow(2*xi_3 - 1, 2) - 227)*(6*xi_1*std::pow(xi_2 + xi_3 - 1, 3) + 5*(-xi_2 - xi_3 + 1)*std::pow(2*xi_1 + xi_2 + xi_3 - 1, 3) + 3*std::pow(xi_2 + xi_3 - 1, 4))*(390*xi_2*std::pow(xi_3 - 1, 5) + 1820*std::pow(-xi_3 + 1, 3)*std::pow(2*xi_2 + xi_3 - 1, 3) + 1547*(-xi_3 + 1)*std::pow(2*xi_2 + xi_3 - 1, 5) + 174*std::pow(xi_3 - 1, 6) + 3185*std::pow(xi_3 - 1, 2)*std::pow(2*xi_2 + xi_3 - 1, 4))/((xi_3 - 1)*std::pow(xi_2 + xi_3 - 1, 2)) - 1/64*(756*xi_3 + 231*std::pow(2*xi_3 - 1, 2) - 227)*(6*xi_1*std::pow(xi_2 + xi_3 - 1, 3) + 5*(-xi_2 - xi_3 + 1)*std::pow(2*xi_1 + xi_2 + xi_3 - 1, 3) + 3*std::pow(xi_2 + xi_3 - 1, 4))*(390*xi_2*std::pow(xi_3 - 1, 5) + 1820*std::pow(-xi_3 + 1, 3)*std::pow(2*xi_2 + xi_3 - 1, 3) + 1547*(-xi_3 + 1)*std::pow(2*xi_2 + xi_3 - 1, 5) + 174*std::pow(xi_3 - 1, 6) + 3185*std::pow(xi_3 - 1, 2)*std::pow(2*xi_2 + xi_3 - 1, 4))/(std::pow(xi_3 - 1, 2)*(xi_2 + xi_3 - 1));
  256 => -(22*xi_3 - 1)*(6*xi_1*std::pow(xi_2 + xi_3 - 1, 3) + 3*std::pow(xi_2 + xi_3 - 1, 4) - 5*(xi_2 + xi_3 - 1)*std::pow(2*xi_1 + xi_2 + xi_3 - 1, 3))*(2940*xi_2*std::pow(xi_3 - 1, 4) + 1902*std::pow(xi_3 - 1, 5) - 1995*std::pow(xi_3 - 1, 4)*(4*xi_2 + 2*xi_3 - 2) - 5040*std::pow(xi_3 - 1, 3)*std::pow(2*xi_2 + xi_3 - 1, 2) + 38640*std::pow(xi_3 - 1, 2)*std::pow(2*xi_2 + xi_3 - 1, 3) - 74970*(xi_3 - 1)*std::pow(2*xi_2 + xi_3 - 1, 4) + 8925*(2*xi_3 - 2)*std::pow(2*xi_2 + xi_3 - 1, 4) + 25704*std::pow(2*xi_2 + xi_3 - 1, 5))/(32*xi_2 + 32*xi_3 - 32) - (22*xi_3 - 1)*(18*xi_1*std::pow(xi_2 + xi_3 - 1, 2) + 12*std::pow(xi_2 + xi_3 - 1, 3) - 15*(xi_2 + xi_3 - 1)*std::pow(2*xi_1 + xi_2 + xi_3 - 1, 2) - 5*std::pow(2*xi_1 + xi_2 + xi_3 - 1, 3))*(588*xi_2*std::pow(xi_3 - 1, 5) + 317*std::pow(xi_3 - 1, 6) - 1995*std::pow(xi_3 - 1, 4)*std::pow(2*xi_2 + xi_3 - 1, 2) + 980*std::pow(xi_3 - 1, 3)*std::pow(2*xi_2 + xi_3 - 1, 3) + 8925*std::pow(xi_3 - 1, 2)*std::pow(2*xi_2 + xi_3 - 1, 4) - 14994*(xi_3 - 1)*std::pow(2*xi_2 + xi_3 - 1, 5) + 6783*std::pow(2*xi_2 + xi_3 - 1, 6))/(32*xi_2 + 32*xi_3 - 32) + 32*(22*xi_3 - 1)*(6*xi_1*std::pow(xi_2 + xi_3 - 1, 3) + 3*std::pow(xi_2 + xi_3 - 1, 4) - 5*(xi_2 + xi_3 - 1)*std::pow(2*xi_1 + xi_2 + xi_3 - 1, 3))*(588*xi_2*std::pow(xi_3 - 1, 5) + 317*std::pow(xi_3 - 1, 6) - 1995*std::pow(xi_3 - 1, 4)*std::pow(2*xi_2 + xi_3 - 1, 2) + 980*std::pow(xi_3 - 1, 3)*std::pow(2*xi_2 + xi_3 - 1, 3) + 8925*std::pow(xi_3 - 1, 2)*std::pow(2*xi_2 + xi_3 - 1, 4) - 14994*(xi_3 - 1)*std::pow(2*xi_2 + xi_3 - 1, 5) + 6783*std::pow(2*xi_2 + xi_3 - 1, 6))/std::pow(32*xi_2 + 32*xi_3 - 32, 2) - 22*(6*xi_1*std::pow(xi_2 + xi_3 - 1, 3) + 3*std::pow(xi_2 + xi_3 - 1, 4) - 5*(xi_2 + xi_3 - 1)*std::pow(2*xi_1 + xi_2 + xi_3 - 1, 3))*(588*xi_2*std::pow(xi_3 - 1, 5) + 317*std::pow(xi_3 - 1, 6) - 1995*std::pow(xi_3 - 1, 4)*std::pow(2*xi_2 + xi_3 - 1, 2) + 980*std::pow(xi_3 - 1, 3)*std::pow(2*xi_2 + xi_3 - 1, 3) + 8925*std::pow(xi_3 - 1, 2)*std::pow(2*xi_2 + xi_3 - 1, 4) - 14994*(xi_3 - 1)*std::pow(2*xi_2 + xi_3 - 1, 5) + 6783*std::pow(2*xi_2 + xi_3 - 1, 6))/(32*xi_2 + 32*xi_3 - 32);
  257 => -1/32*(6*xi_1*std::pow(xi_2 + xi_3 - 1, 3) + 3*std::pow(xi_2 + xi_3 - 1, 4) - 5*(xi_2 + xi_3 - 1)*std::pow(2*xi_1 + xi_2 + xi_3 - 1, 3))*(4410*xi_2*std::pow(xi_3 - 1, 6) + 2176*std::pow(xi_3 - 1, 7) + 1155*std::pow(xi_3 - 1, 6)*(4*xi_2 + 2*xi_3 - 2) - 16275*std::pow(xi_3 - 1, 5)*std::pow(2*xi_2 + xi_3 - 1, 2) - 17255*std::pow(xi_3 - 1, 4)*std::pow(2*xi_2 + xi_3 - 1, 3) + 123165*std::pow(xi_3 - 1, 3)*std::pow(2*xi_2 + xi_3 - 1, 4) - 142443*std::pow(xi_3 - 1, 2)*std::pow(2*xi_2 + xi_3 - 1, 5) + 101745*(xi_3 - 1)*std::pow(2*xi_2 + xi_3 - 1, 6) - 33915*(2*xi_3 - 2)*std::pow(2*xi_2 + xi_3 - 1, 6) + 14535*std::pow(2*xi_2 + xi_3 - 1, 7))/((xi_3 - 1)*(xi_2 + xi_3 - 1)) - 1/32*(18*xi_1*std::pow(xi_2 + xi_3 - 1, 2) + 12*std::pow(xi_2 + xi_3 - 1, 3) - 15*(xi_2 + xi_3 - 1)*std::pow(2*xi_1 + xi_2 + xi_3 - 1, 2) - 5*std::pow(2*xi_1 + xi_2 + xi_3 - 1, 3))*(630*xi_2*std::pow(xi_3 - 1, 7) + 272*std::pow(xi_3 - 1, 8) + 1155*std::pow(xi_3 - 1, 6)*std::pow(2*xi_2 + xi_3 - 1, 2) - 7735*std::pow(xi_3 - 1, 5)*std::pow(2*xi_2 + xi_3 - 1, 3) + 5355*std::pow(xi_3 - 1, 4)*std::pow(2*xi_2 + xi_3 - 1, 4) + 20349*std::pow(xi_3 - 1, 3)*std::pow(2*xi_2 + xi_3 - 1, 5) - 33915*std::pow(xi_3 - 1, 2)*std::pow(2*xi_2 + xi_3 - 1, 6) + 14535*(xi_3 - 1)*std::pow(2*xi_2 + xi_3 - 1, 7))/((xi_3 - 1)*(xi_2 + xi_3 - 1)) + (1/32)*(6*xi_1*std::pow(xi_2 + xi_3 - 1, 3) + 3*std::pow(xi_2 + xi_3 - 1, 4) - 5*(xi_2 + xi_3 - 1)*std::pow(2*xi_1 + xi_2 + xi_3 - 1, 3))*(630*xi_2*std::pow(xi_3 - 1, 7) + 272*std::pow(xi_3 - 1, 8) + 1155*std::pow(xi_3 - 1, 6)*std::pow(2*xi_2 + xi_3 - 1, 2) - 7735*std::pow(xi_3 - 1, 5)*std::pow(2*xi_2 + xi_3 - 1, 3) + 5355*std::pow(xi_3 - 1, 4)*std::pow(2*xi_2 + xi_3 - 1, 4) + 20349*std::pow(xi_3 - 1, 3)*std::pow(2*xi_2 + xi_3 - 1, 5) - 33915*std::pow(xi_3 - 1, 2)*std::pow(2*xi_2 + xi_3 - 1, 6) + 14535*(xi_3 - 1)*std::pow(2*xi_2 + xi_3 - 1, 7))/((xi_3 - 1)*std::pow(xi_2 + xi_3 - 1, 2)) + (1/32)*(6*xi_1*std::pow(xi_2 + xi_3 - 1, 3) + 3*std::pow(xi_2 + xi_3 - 1, 4) - 5*(xi_2 + xi_3 - 1)*std::pow(2*xi_1 + xi_2 + xi_3 - 1, 3))*(630*xi_2*std::pow(xi_3 - 1, 7) + 272*std::pow(xi_3 - 1, 8) + 1155*std::pow(xi_3 - 1, 6)*std::pow(2*xi_2 + xi_3 - 1, 2) - 7735*std::pow(xi_3 - 1, 5)*std::pow(2*xi_2 + xi_3 - 1, 3) + 5355*std::pow(xi_3 - 1, 4)*std::pow(2*xi_2 + xi_3 - 1, 4) + 20349*std::pow(xi_3 - 1, 3)*std::pow(2*xi_2 + xi_3 - 1, 5) - 33915*std::pow(xi_3 - 1, 2)*std::pow(2*xi_2 + xi_3 - 1, 6) + 14535*(xi_3 - 1)*std::pow(2*xi_2 + xi_3 - 1, 7))/(std::pow(xi_3 - 1, 2)*(xi_2 + xi_3 - 1));
  258 => (1/512)*(3*std::pow(xi_2 + xi_3 - 1, 4) - 30*std::pow(xi_2 + xi_3 - 1, 2)*std::pow(2*xi_1 + xi_2 + xi_3 - 1, 2) + 35*std::pow(2*xi_1 + xi_2 + xi_3 - 1, 4))*(-55080*xi_3 + 895356*std::pow(2*xi_3 - 1, 5) + 2034900*std::pow(2*xi_3 - 1, 4) + 1511640*std::pow(2*xi_3 - 1, 3) + 348840*std::pow(2*xi_3 - 1, 2) + 16728) + (1/512)*(12*std::pow(xi_2 + xi_3 - 1, 3) - 30*std::pow(xi_2 + xi_3 - 1, 2)*(4*xi_1 + 2*xi_2 + 2*xi_3 - 2) - 30*(2*xi_2 + 2*xi_3 - 2)*std::pow(2*xi_1 + xi_2 + xi_3 - 1, 2) + 140*std::pow(2*xi_1 + xi_2 + xi_3 - 1, 3))*(-10812*xi_3 + 74613*std::pow(2*xi_3 - 1, 6) + 203490*std::pow(2*xi_3 - 1, 5) + 188955*std::pow(2*xi_3 - 1, 4) + 58140*std::pow(2*xi_3 - 1, 3) - 6885*std::pow(2*xi_3 - 1, 2) + 5011);
  259 => (1/128)*(11*xi_2 + xi_3 - 1)*(3*std::pow(xi_2 + xi_3 - 1, 4) - 30*std::pow(xi_2 + xi_3 - 1, 2)*std::pow(2*xi_1 + xi_2 + xi_3 - 1, 2) + 35*std::pow(2*xi_1 + xi_2 + xi_3 - 1, 4))*(109440*xi_3 + 131670*std::pow(2*xi_3 - 1, 4) + 287280*std::pow(2*xi_3 - 1, 3) + 208620*std::pow(2*xi_3 - 1, 2) - 51570) + (1/128)*(11*xi_2 + xi_3 - 1)*(12*std::pow(xi_2 + xi_3 - 1, 3) - 30*std::pow(xi_2 + xi_3 - 1, 2)*(4*xi_1 + 2*xi_2 + 2*xi_3 - 2) - 30*(2*xi_2 + 2*xi_3 - 2)*std::pow(2*xi_1 + xi_2 + xi_3 - 1, 2) + 140*std::pow(2*xi_1 + xi_2 + xi_3 - 1, 3))*(3150*xi_3 + 13167*std::pow(2*xi_3 - 1, 5) + 35910*std::pow(2*xi_3 - 1, 4) + 34770*std::pow(2*xi_3 - 1, 3) + 13680*std::pow(2*xi_3 - 1, 2) - 1669) + (1/128)*(3*std::pow(xi_2 + xi_3 - 1, 4) - 30*std::pow(xi_2 + xi_3 - 1, 2)*std::pow(2*xi_1 + xi_2 + xi_3 - 1, 2) + 35*std::pow(2*xi_1 + xi_2 + xi_3 - 1, 4))*(3150*xi_3 + 13167*std::pow(2*xi_3 - 1, 5) + 35910*std::pow(2*xi_3 - 1, 4) + 34770*std::pow(2*xi_3 - 1, 3) + 13680*std::pow(2*xi_3 - 1, 2) - 1669);
  260 => -(108*xi_2*std::pow(xi_3 - 1, 2) + 37*std::pow(xi_3 - 1, 3) - 39*(xi_3 - 1)*std::pow(2*xi_2 + xi_3 - 1, 2))*(3*std::pow(xi_2 + xi_3 - 1, 4) - 30*std::pow(xi_2 + xi_3 - 1, 2)*std::pow(2*xi_1 + xi_2 + xi_3 - 1, 2) + 35*std::pow(2*xi_1 + xi_2 + xi_3 - 1, 4))*(132240*xi_3 + 58520*std::pow(2*xi_3 - 1, 3) + 111720*std::pow(2*xi_3 - 1, 2) - 54416)/(256*xi_3 - 256) - (108*xi_2*std::pow(xi_3 - 1, 2) + 37*std::pow(xi_3 - 1, 3) - 39*(xi_3 - 1)*std::pow(2*xi_2 + xi_3 - 1, 2))*(12*std::pow(xi_2 + xi_3 - 1, 3) - 30*std::pow(xi_2 + xi_3 - 1, 2)*(4*xi_1 + 2*xi_2 + 2*xi_3 - 2) - 30*(2*xi_2 + 2*xi_3 - 2)*std::pow(2*xi_1 + xi_2 + xi_3 - 1, 2) + 140*std::pow(2*xi_1 + xi_2 + xi_3 - 1, 3))*(11704*xi_3 + 7315*std::pow(2*xi_3 - 1, 4) + 18620*std::pow(2*xi_3 - 1, 3) + 16530*std::pow(2*xi_3 - 1, 2) - 5209)/(256*xi_3 - 256) - (3*std::pow(xi_2 + xi_3 - 1, 4) - 30*std::pow(xi_2 + xi_3 - 1, 2)*std::pow(2*xi_1 + xi_2 + xi_3 - 1, 2) + 35*std::pow(2*xi_1 + xi_2 + xi_3 - 1, 4))*(108*xi_2*(2*xi_3 - 2) + 111*std::pow(xi_3 - 1, 2) - 39*(xi_3 - 1)*(4*xi_2 + 2*xi_3 - 2) - 39*std::pow(2*xi_2 + xi_3 - 1, 2))*(11704*xi_3 + 7315*std::pow(2*xi_3 - 1, 4) + 18620*std::pow(2*xi_3 - 1, 3) + 16530*std::pow(2*xi_3 - 1, 2) - 5209)/(256*xi_3 - 256) + 256*(108*xi_2*std::pow(xi_3 - 1, 2) + 37*std::pow(xi_3 - 1, 3) - 39*(xi_3 - 1)*std::pow(2*xi_2 + xi_3 - 1, 2))*(3*std::pow(xi_2 + xi_3 - 1, 4) - 30*std::pow(xi_2 + xi_3 - 1, 2)*std::pow(2*xi_1 + xi_2 + xi_3 - 1, 2) + 35*std::pow(2*xi_1 + xi_2 + xi_3 - 1, 4))*(11704*xi_3 + 7315*std::pow(2*xi_3 - 1, 4) + 18620*std::pow(2*xi_3 - 1, 3) + 16530*std::pow(2*xi_3 - 1, 2) - 5209)/std::pow(256*xi_3 - 256, 2);
  261 => (1/128)*(6720*xi_3 + 2310*std::pow(2*xi_3 - 1, 2) - 2190)*(3*std::pow(xi_2 + xi_3 - 1, 4) - 30*std::pow(xi_2 + xi_3 - 1, 2)*std::pow(2*xi_1 + xi_2 + xi_3 - 1, 2) + 35*std::pow(2*xi_1 + xi_2 + xi_3 - 1, 4))*(858*xi_2*std::pow(xi_3 - 1, 3) - 819*std::pow(-xi_3 + 1, 2)*std::pow(-2*xi_2 - xi_3 + 1, 2) + 455*(-xi_3 + 1)*std::pow(-2*xi_2 - xi_3 + 1, 3) + 372*std::pow(xi_3 - 1, 4))/(xi_3 - 1) + (1/128)*(3*std::pow(xi_2 + xi_3 - 1, 4) - 30*std::pow(xi_2 + xi_3 - 1, 2)*std::pow(2*xi_1 + xi_2 + xi_3 - 1, 2) + 35*std::pow(2*xi_1 + xi_2 + xi_3 - 1, 4))*(1170*xi_3 + 385*std::pow(2*xi_3 - 1, 3) + 840*std::pow(2*xi_3 - 1, 2) - 457)*(2574*xi_2*std::pow(xi_3 - 1, 2) - 819*std::pow(-xi_3 + 1, 2)*(4*xi_2 + 2*xi_3 - 2) - 1365*(-xi_3 + 1)*std::pow(-2*xi_2 - xi_3 + 1, 2) + 1488*std::pow(xi_3 - 1, 3) - 819*(2*xi_3 - 2)*std::pow(-2*xi_2 - xi_3 + 1, 2) - 455*std::pow(-2*xi_2 - xi_3 + 1, 3))/(xi_3 - 1) + (1/128)*(1170*xi_3 + 385*std::pow(2*xi_3 - 1, 3) + 840*std::pow(2*xi_3 - 1, 2) - 457)*(858*xi_2*std::pow(xi_3 - 1, 3) - 819*std::pow(-xi_3 + 1, 2)*std::pow(-2*xi_2 - xi_3 + 1, 2) + 455*(-xi_3 + 1)*std::pow(-2*xi_2 - xi_3 + 1, 3) + 372*std::pow(xi_3 - 1, 4))*(12*std::pow(xi_2 + xi_3 - 1, 3) - 30*std::pow(xi_2 + xi_3 - 1, 2)*(4*xi_1 + 2*xi_2 + 2*xi_3 - 2) - 30*(2*xi_2 + 2*xi_3 - 2)*std::pow(2*xi_1 + xi_2 + xi_3 - 1, 2) + 140*std::pow(2*xi_1 + xi_2 + xi_3 - 1, 3))/(xi_3 - 1) - 1/128*(3*std::pow(xi_2 + xi_3 - 1, 4) - 30*std::pow(xi_2 + xi_3 - 1, 2)*std::pow(2*xi_1 + xi_2 + xi_3 - 1, 2) + 35*std::pow(2*xi_1 + xi_2 + xi_3 - 1, 4))*(1170*xi_3 + 385*std::pow(2*xi_3 - 1, 3) + 840*std::pow(2*xi_3 - 1, 2) - 457)*(858*xi_2*std::pow(xi_3 - 1, 3) - 819*std::pow(-xi_3 + 1, 2)*std::pow(-2*xi_2 - xi_3 + 1, 2) + 455*(-xi_3 + 1)*std::pow(-2*xi_2 - xi_3 + 1, 3) + 372*std::pow(xi_3 - 1, 4))/std::pow(xi_3 - 1, 2);
  262 => (1/128)*(1848*xi_3 - 168)*(3*std::pow(xi_2 + xi_3 - 1, 4) - 30*std::pow(xi_2 + xi_3 - 1, 2)*std::pow(2*xi_1 + xi_2 + xi_3 - 1, 2) + 35*std::pow(2*xi_1 + xi_2 + xi_3 - 1, 4))*(-336*xi_2*std::pow(xi_3 - 1, 3) - 171*std::pow(xi_3 - 1, 4) + 840*std::pow(xi_3 - 1, 2)*std::pow(2*xi_2 + xi_3 - 1, 2) - 1260*(xi_3 - 1)*std::pow(2*xi_2 + xi_3 - 1, 3) + 595*std::pow(2*xi_2 + xi_3 - 1, 4)) + (1/128)*(756*xi_3 + 231*std::pow(2*xi_3 - 1, 2) - 227)*(3*std::pow(xi_2 + xi_3 - 1, 4) - 30*std::pow(xi_2 + xi_3 - 1, 2)*std::pow(2*xi_1 + xi_2 + xi_3 - 1, 2) + 35*std::pow(2*xi_1 + xi_2 + xi_3 - 1, 4))*(-1008*xi_2*std::pow(xi_3 - 1, 2) - 684*std::pow(xi_3 - 1, 3) + 840*std::pow(xi_3 - 1, 2)*(4*xi_2 + 2*xi_3 - 2) - 3780*(xi_3 - 1)*std::pow(2*xi_2 + xi_3 - 1, 2) + 840*(2*xi_3 - 2)*std::pow(2*xi_2 + xi_3 - 1, 2) + 1120*std::pow(2*xi_2 + xi_3 - 1, 3)) + (1/128)*(756*xi_3 + 231*std::pow(2*xi_3 - 1, 2) - 227)*(12*std::pow(xi_2 + xi_3 - 1, 3) - 30*std::pow(xi_2 + xi_3 - 1, 2)*(4*xi_1 + 2*xi_2 + 2*xi_3 - 2) - 30*(2*xi_2 + 2*xi_3 - 2)*std::pow(2*xi_1 + xi_2 + xi_3 - 1, 2) + 140*std::pow(2*xi_1 + xi_2 + xi_3 - 1, 3))*(-336*xi_2*std::pow(xi_3 - 1, 3) - 171*std::pow(xi_3 - 1, 4) + 840*std::pow(xi_3 - 1, 2)*std::pow(2*xi_2 + xi_3 - 1, 2) - 1260*(xi_3 - 1)*std::pow(2*xi_2 + xi_3 - 1, 3) + 595*std::pow(2*xi_2 + xi_3 - 1, 4));
  263 => -(22*xi_3 - 1)*(3*std::pow(xi_2 + xi_3 - 1, 4) - 30*std::pow(xi_2 + xi_3 - 1, 2)*std::pow(2*xi_1 + xi_2 + xi_3 - 1, 2) + 35*std::pow(2*xi_1 + xi_2 + xi_3 - 1, 4))*(1650*xi_2*std::pow(xi_3 - 1, 4) + 684*std::pow(xi_3 - 1, 5) + 1170*std::pow(xi_3 - 1, 4)*(4*xi_2 + 2*xi_3 - 2) - 11130*std::pow(xi_3 - 1, 3)*std::pow(2*xi_2 + xi_3 - 1, 2) + 11730*std::pow(xi_3 - 1, 2)*std::pow(2*xi_2 + xi_3 - 1, 3) - 14535*(xi_3 - 1)*std::pow(2*xi_2 + xi_3 - 1, 4) + 6885*(2*xi_3 - 2)*std::pow(2*xi_2 + xi_3 - 1, 4) - 2907*std::pow(2*xi_2 + xi_3 - 1, 5))/(64*xi_3 - 64) - (22*xi_3 - 1)*(12*std::pow(xi_2 + xi_3 - 1, 3) - 30*std::pow(xi_2 + xi_3 - 1, 2)*(4*xi_1 + 2*xi_2 + 2*xi_3 - 2) - 30*(2*xi_2 + 2*xi_3 - 2)*std::pow(2*xi_1 + xi_2 + xi_3 - 1, 2) + 140*std::pow(2*xi_1 + xi_2 + xi_3 - 1, 3))*(330*xi_2*std::pow(xi_3 - 1, 5) + 114*std::pow(xi_3 - 1, 6) + 1170*std::pow(xi_3 - 1, 4)*std::pow(2*xi_2 + xi_3 - 1, 2) - 5270*std::pow(xi_3 - 1, 3)*std::pow(2*xi_2 + xi_3 - 1, 3) + 6885*std::pow(xi_3 - 1, 2)*std::pow(2*xi_2 + xi_3 - 1, 4) - 2907*(xi_3 - 1)*std::pow(2*xi_2 + xi_3 - 1, 5))/(64*xi_3 - 64) + 64*(22*xi_3 - 1)*(3*std::pow(xi_2 + xi_3 - 1, 4) - 30*std::pow(xi_2 + xi_3 - 1, 2)*std::pow(2*xi_1 + xi_2 + xi_3 - 1, 2) + 35*std::pow(2*xi_1 + xi_2 + xi_3 - 1, 4))*(330*xi_2*std::pow(xi_3 - 1, 5) + 114*std::pow(xi_3 - 1, 6) + 1170*std::pow(xi_3 - 1, 4)*std::pow(2*xi_2 + xi_3 - 1, 2) - 5270*std::pow(xi_3 - 1, 3)*std::pow(2*xi_2 + xi_3 - 1, 3) + 6885*std::pow(xi_3 - 1, 2)*std::pow(2*xi_2 + xi_3 - 1, 4) - 2907*(xi_3 - 1)*std::pow(2*xi_2 + xi_3 - 1, 5))/std::pow(64*xi_3 - 64, 2) - 22*(3*std::pow(xi_2 + xi_3 - 1, 4) - 30*std::pow(xi_2 + xi_3 - 1, 2)*std::pow(2*xi_1 + xi_2 + xi_3 - 1, 2) + 35*std::pow(2*xi_1 + xi_2 + xi_3 - 1, 4))*(330*xi_2*std::pow(xi_3 - 1, 5) + 114*std::pow(xi_3 - 1, 6) + 1170*std::pow(xi_3 - 1, 4)*std::pow(2*xi_2 + xi_3 - 1, 2) - 5270*std::pow(xi_3 - 1, 3)*std::pow(2*xi_2 + xi_3 - 1, 3) + 6885*std::pow(xi_3 - 1, 2)*std::pow(2*xi_2 + xi_3 - 1, 4) - 2907*(xi_3 - 1)*std::pow(2*xi_2 + xi_3 - 1, 5))/(64*xi_3 - 64);
  264 => (1/64)*(3*std::pow(xi_2 + xi_3 - 1, 4) - 30*std::pow(xi_2 + xi_3 - 1, 2)*std::pow(2*xi_1 + xi_2 + xi_3 - 1, 2) + 35*std::pow(2*xi_1 + xi_2 + xi_3 - 1, 4))*(4860*xi_2*std::pow(xi_3 - 1, 4) + 2802*std::pow(xi_3 - 1, 5) - 1275*std::pow(xi_3 - 1, 4)*(4*xi_2 + 2*xi_3 - 2) - 14280*std::pow(xi_3 - 1, 3)*std::pow(2*xi_2 + xi_3 - 1, 2) + 48960*std::pow(xi_3 - 1, 2)*std::pow(2*xi_2 + xi_3 - 1, 3) - 87210*(xi_3 - 1)*std::pow(2*xi_2 + xi_3 - 1, 4) + 14535*(2*xi_3 - 2)*std::pow(2*xi_2 + xi_3 - 1, 4) + 23256*std::pow(2*xi_2 + xi_3 - 1, 5)) + (1/64)*(12*std::pow(xi_2 + xi_3 - 1, 3) - 30*std::pow(xi_2 + xi_3 - 1, 2)*(4*xi_1 + 2*xi_2 + 2*xi_3 - 2) - 30*(2*xi_2 + 2*xi_3 - 2)*std::pow(2*xi_1 + xi_2 + xi_3 - 1, 2) + 140*std::pow(2*xi_1 + xi_2 + xi_3 - 1, 3))*(972*xi_2*std::pow(xi_3 - 1, 5) + 467*std::pow(xi_3 - 1, 6) - 1275*std::pow(xi_3 - 1, 4)*std::pow(2*xi_2 + xi_3 - 1, 2) - 3060*std::pow(xi_3 - 1, 3)*std::pow(2*xi_2 + xi_3 - 1, 3) + 14535*std::pow(xi_3 - 1, 2)*std::pow(2*xi_2 + xi_3 - 1, 4) - 17442*(xi_3 - 1)*std::pow(2*xi_2 + xi_3 - 1, 5) + 6783*std::pow(2*xi_2 + xi_3 - 1, 6));
  265 => (1/128)*(30*xi_1*std::pow(xi_2 + xi_3 - 1, 5) + 63*(-xi_2 - xi_3 + 1)*std::pow(-2*xi_1 - xi_2 - xi_3 + 1, 5) + 15*std::pow(xi_2 + xi_3 - 1, 6) + 70*std::pow(xi_2 + xi_3 - 1, 3)*std::pow(-2*xi_1 - xi_2 - xi_3 + 1, 3))*(109440*xi_3 + 131670*std::pow(2*xi_3 - 1, 4) + 287280*std::pow(2*xi_3 - 1, 3) + 208620*std::pow(2*xi_3 - 1, 2) - 51570)/(xi_2 + xi_3 - 1) + (1/128)*(3150*xi_3 + 13167*std::pow(2*xi_3 - 1, 5) + 35910*std::pow(2*xi_3 - 1, 4) + 34770*std::pow(2*xi_3 - 1, 3) + 13680*std::pow(2*xi_3 - 1, 2) - 1669)*(150*xi_1*std::pow(xi_2 + xi_3 - 1, 4) - 315*(-xi_2 - xi_3 + 1)*std::pow(-2*xi_1 - xi_2 - xi_3 + 1, 4) + 90*std::pow(xi_2 + xi_3 - 1, 5) - 210*std::pow(xi_2 + xi_3 - 1, 3)*std::pow(-2*xi_1 - xi_2 - xi_3 + 1, 2) + 210*std::pow(xi_2 + xi_3 - 1, 2)*std::pow(-2*xi_1 - xi_2 - xi_3 + 1, 3) - 63*std::pow(-2*xi_1 - xi_2 - xi_3 + 1, 5))/(xi_2 + xi_3 - 1) - 1/128*(30*xi_1*std::pow(xi_2 + xi_3 - 1, 5) + 63*(-xi_2 - xi_3 + 1)*std::pow(-2*xi_1 - xi_2 - xi_3 + 1, 5) + 15*std::pow(xi_2 + xi_3 - 1, 6) + 70*std::pow(xi_2 + xi_3 - 1, 3)*std::pow(-2*xi_1 - xi_2 - xi_3 + 1, 3))*(3150*xi_3 + 13167*std::pow(2*xi_3 - 1, 5) + 35910*std::pow(2*xi_3 - 1, 4) + 34770*std::pow(2*xi_3 - 1, 3) + 13680*std::pow(2*xi_3 - 1, 2) - 1669)/std::pow(xi_2 + xi_3 - 1, 2);
  266 => (1/128)*(13*xi_2 + xi_3 - 1)*(132240*xi_3 + 58520*std::pow(2*xi_3 - 1, 3) + 111720*std::pow(2*xi_3 - 1, 2) - 54416)*(30*xi_1*std::pow(xi_2 + xi_3 - 1, 5) + 63*(-xi_2 - xi_3 + 1)*std::pow(-2*xi_1 - xi_2 - xi_3 + 1, 5) + 15*std::pow(xi_2 + xi_3 - 1, 6) + 70*std::pow(xi_2 + xi_3 - 1, 3)*std::pow(-2*xi_1 - xi_2 - xi_3 + 1, 3))/(xi_2 + xi_3 - 1) + (1/128)*(13*xi_2 + xi_3 - 1)*(11704*xi_3 + 7315*std::pow(2*xi_3 - 1, 4) + 18620*std::pow(2*xi_3 - 1, 3) + 16530*std::pow(2*xi_3 - 1, 2) - 5209)*(150*xi_1*std::pow(xi_2 + xi_3 - 1, 4) - 315*(-xi_2 - xi_3 + 1)*std::pow(-2*xi_1 - xi_2 - xi_3 + 1, 4) + 90*std::pow(xi_2 + xi_3 - 1, 5) - 210*std::pow(xi_2 + xi_3 - 1, 3)*std::pow(-2*xi_1 - xi_2 - xi_3 + 1, 2) + 210*std::pow(xi_2 + xi_3 - 1, 2)*std::pow(-2*xi_1 - xi_2 - xi_3 + 1, 3) - 63*std::pow(-2*xi_1 - xi_2 - xi_3 + 1, 5))/(xi_2 + xi_3 - 1) + (1/128)*(30*xi_1*std::pow(xi_2 + xi_3 - 1, 5) + 63*(-xi_2 - xi_3 + 1)*std::pow(-2*xi_1 - xi_2 - xi_3 + 1, 5) + 15*std::pow(xi_2 + xi_3 - 1, 6) + 70*std::pow(xi_2 + xi_3 - 1, 3)*std::pow(-2*xi_1 - xi_2 - xi_3 + 1, 3))*(11704*xi_3 + 7315*std::pow(2*xi_3 - 1, 4) + 18620*std::pow(2*xi_3 - 1, 3) + 16530*std::pow(2*xi_3 - 1, 2) - 5209)/(xi_2 + xi_3 - 1) - 1/128*(13*xi_2 + xi_3 - 1)*(30*xi_1*std::pow(xi_2 + xi_3 - 1, 5) + 63*(-xi_2 - xi_3 + 1)*std::pow(-2*xi_1 - xi_2 - xi_3 + 1, 5) + 15*std::pow(xi_2 + xi_3 - 1, 6) + 70*std::pow(xi_2 + xi_3 - 1, 3)*std::pow(-2*xi_1 - xi_2 - xi_3 + 1, 3))*(11704*xi_3 + 7315*std::pow(2*xi_3 - 1, 4) + 18620*std::pow(2*xi_3 - 1, 3) + 16530*std::pow(2*xi_3 - 1, 2) - 5209)/std::pow(xi_2 + xi_3 - 1, 2);
  267 => -1/64*(6720*xi_3 + 2310*std::pow(2*xi_3 - 1, 2) - 2190)*(308*xi_2*std::pow(xi_3 - 1, 2) + 101*std::pow(xi_3 - 1, 3) - 105*(xi_3 - 1)*std::pow(2*xi_2 + xi_3 - 1, 2))*(30*xi_1*std::pow(xi_2 + xi_3 - 1, 5) + 15*std::pow(xi_2 + xi_3 - 1, 6) - 70*std::pow(xi_2 + xi_3 - 1, 3)*std::pow(2*xi_1 + xi_2 + xi_3 - 1, 3) + 63*(xi_2 + xi_3 - 1)*std::pow(2*xi_1 + xi_2 + xi_3 - 1, 5))/((xi_3 - 1)*(xi_2 + xi_3 - 1)) - 1/64*(308*xi_2*std::pow(xi_3 - 1, 2) + 101*std::pow(xi_3 - 1, 3) - 105*(xi_3 - 1)*std::pow(2*xi_2 + xi_3 - 1, 2))*(1170*xi_3 + 385*std::pow(2*xi_3 - 1, 3) + 840*std::pow(2*xi_3 - 1, 2) - 457)*(150*xi_1*std::pow(xi_2 + xi_3 - 1, 4) + 90*std::pow(xi_2 + xi_3 - 1, 5) - 210*std::pow(xi_2 + xi_3 - 1, 3)*std::pow(2*xi_1 + xi_2 + xi_3 - 1, 2) - 210*std::pow(xi_2 + xi_3 - 1, 2)*std::pow(2*xi_1 + xi_2 + xi_3 - 1, 3) + 315*(xi_2 + xi_3 - 1)*std::pow(2*xi_1 + xi_2 + xi_3 - 1, 4) + 63*std::pow(2*xi_1 + xi_2 + xi_3 - 1, 5))/((xi_3 - 1)*(xi_2 + xi_3 - 1)) - 1/64*(1170*xi_3 + 385*std::pow(2*xi_3 - 1, 3) + 840*std::pow(2*xi_3 - 1, 2) - 457)*(30*xi_1*std::pow(xi_2 + xi_3 - 1, 5) + 15*std::pow(xi_2 + xi_3 - 1, 6) - 70*std::pow(xi_2 + xi_3 - 1, 3)*std::pow(2*xi_1 + xi_2 + xi_3 - 1, 3) + 63*(xi_2 + xi_3 - 1)*std::pow(2*xi_1 + xi_2 + xi_3 - 1, 5))*(308*xi_2*(2*xi_3 - 2) + 303*std::pow(xi_3 - 1, 2) - 105*(xi_3 - 1)*(4*xi_2 + 2*xi_3 - 2) - 105*std::pow(2*xi_2 + xi_3 - 1, 2))/((xi_3 - 1)*(xi_2 + xi_3 - 1)) + (1/64)*(308*xi_2*std::pow(xi_3 - 1, 2) + 101*std::pow(xi_3 - 1, 3) - 105*(xi_3 - 1)*std::pow(2*xi_2 + xi_3 - 1, 2))*(1170*xi_3 + 385*std::pow(2*xi_3 - 1, 3) + 840*std::pow(2*xi_3 - 1, 2) - 457)*(30*xi_1*std::pow(xi_2 + xi_3 - 1, 5) + 15*std::pow(xi_2 + xi_3 - 1, 6) - 70*std::pow(xi_2 + xi_3 - 1, 3)*std::pow(2*xi_1 + xi_2 + xi_3 - 1, 3) + 63*(xi_2 + xi_3 - 1)*std::pow(2*xi_1 + xi_2 + xi_3 - 1, 5))/((xi_3 - 1)*std::pow(xi_2 + xi_3 - 1, 2)) + (1/64)*(308*xi_2*std::pow(xi_3 - 1, 2) + 101*std::pow(xi_3 - 1, 3) - 105*(xi_3 - 1)*std::pow(2*xi_2 + xi_3 - 1, 2))*(1170*xi_3 + 385*std::pow(2*xi_3 - 1, 3) + 840*std::pow(2*xi_3 - 1, 2) - 457)*(30*xi_1*std::pow(xi_2 + xi_3 - 1, 5) + 15*std::pow(xi_2 + xi_3 - 1, 6) - 70*std::pow(xi_2 + xi_3 - 1, 3)*std::pow(2*xi_1 + xi_2 + xi_3 - 1, 3) + 63*(xi_2 + xi_3 - 1)*std::pow(2*xi_1 + xi_2 + xi_3 - 1, 5))/(std::pow(xi_3 - 1, 2)*(xi_2 + xi_3 - 1));
  268 => (1/32)*(1848*xi_3 - 168)*(30*xi_1*std::pow(xi_2 + xi_3 - 1, 5) + 63*(-xi_2 - xi_3 + 1)*std::pow(-2*xi_1 - xi_2 - xi_3 + 1, 5) + 15*std::pow(xi_2 + xi_3 - 1, 6) + 70*std::pow(xi_2 + xi_3 - 1, 3)*std::pow(-2*xi_1 - xi_2 - xi_3 + 1, 3))*(195*xi_2*std::pow(xi_3 - 1, 2) + 81*std::pow(xi_3 - 1, 3) - 165*(xi_3 - 1)*std::pow(-2*xi_2 - xi_3 + 1, 2) - 85*std::pow(-2*xi_2 - xi_3 + 1, 3))/(xi_2 + xi_3 - 1) + (1/32)*(756*xi_3 + 231*std::pow(2*xi_3 - 1, 2) - 227)*(30*xi_1*std::pow(xi_2 + xi_3 - 1, 5) + 63*(-xi_2 - xi_3 + 1)*std::pow(-2*xi_1 - xi_2 - xi_3 + 1, 5) + 15*std::pow(xi_2 + xi_3 - 1, 6) + 70*std::pow(xi_2 + xi_3 - 1, 3)*std::pow(-2*xi_1 - xi_2 - xi_3 + 1, 3))*(195*xi_2*(2*xi_3 - 2) + 243*std::pow(xi_3 - 1, 2) - 165*(xi_3 - 1)*(4*xi_2 + 2*xi_3 - 2) + 90*std::pow(-2*xi_2 - xi_3 + 1, 2))/(xi_2 + xi_3 - 1) + (1/32)*(756*xi_3 + 231*std::pow(2*xi_3 - 1, 2) - 227)*(195*xi_2*std::pow(xi_3 - 1, 2) + 81*std::pow(xi_3 - 1, 3) - 165*(xi_3 - 1)*std::pow(-2*xi_2 - xi_3 + 1, 2) - 85*std::pow(-2*xi_2 - xi_3 + 1, 3))*(150*xi_1*std::pow(xi_2 + xi_3 - 1, 4) - 315*(-xi_2 - xi_3 + 1)*std::pow(-2*xi_1 - xi_2 - xi_3 + 1, 4) + 90*std::pow(xi_2 + xi_3 - 1, 5) - 210*std::pow(xi_2 + xi_3 - 1, 3)*std::pow(-2*xi_1 - xi_2 - xi_3 + 1, 2) + 210*std::pow(xi_2 + xi_3 - 1, 2)*std::pow(-2*xi_1 - xi_2 - xi_3 + 1, 3) - 63*std::pow(-2*xi_1 - xi_2 - xi_3 + 1, 5))/(xi_2 + xi_3 - 1) - 1/32*(756*xi_3 + 231*std::pow(2*xi_3 - 1, 2) - 227)*(30*xi_1*std::pow(xi_2 + xi_3 - 1, 5) + 63*(-xi_2 - xi_3 + 1)*std::pow(-2*xi_1 - xi_2 - xi_3 + 1, 5) + 15*std::pow(xi_2 + xi_3 - 1, 6) + 70*std::pow(xi_2 + xi_3 - 1, 3)*std::pow(-2*xi_1 - xi_2 - xi_3 + 1, 3))*(195*xi_2*std::pow(xi_3 - 1, 2) + 81*std::pow(xi_3 - 1, 3) - 165*(xi_3 - 1)*std::pow(-2*xi_2 - xi_3 + 1, 2) - 85*std::pow(-2*xi_2 - xi_3 + 1, 3))/std::pow(xi_2 + xi_3 - 1, 2);
  269 => (1/32)*(22*xi_3 - 1)*(30*xi_1*std::pow(xi_2 + xi_3 - 1, 5) + 63*(-xi_2 - xi_3 + 1)*std::pow(-2*xi_1 - xi_2 - xi_3 + 1, 5) + 15*std::pow(xi_2 + xi_3 - 1, 6) + 70*std::pow(xi_2 + xi_3 - 1, 3)*std::pow(-2*xi_1 - xi_2 - xi_3 + 1, 3))*(-2904*xi_2*std::pow(xi_3 - 1, 2) - 1820*std::pow(xi_3 - 1, 3) + 1734*std::pow(xi_3 - 1, 2)*(4*xi_2 + 2*xi_3 - 2) - 6732*(xi_3 - 1)*std::pow(2*xi_2 + xi_3 - 1, 2) + 1734*(2*xi_3 - 2)*std::pow(2*xi_2 + xi_3 - 1, 2) + 1632*std::pow(2*xi_2 + xi_3 - 1, 3))/(xi_2 + xi_3 - 1) + (1/32)*(22*xi_3 - 1)*(-968*xi_2*std::pow(xi_3 - 1, 3) - 455*std::pow(xi_3 - 1, 4) + 1734*std::pow(xi_3 - 1, 2)*std::pow(2*xi_2 + xi_3 - 1, 2) - 2244*(xi_3 - 1)*std::pow(2*xi_2 + xi_3 - 1, 3) + 969*std::pow(2*xi_2 + xi_3 - 1, 4))*(150*xi_1*std::pow(xi_2 + xi_3 - 1, 4) - 315*(-xi_2 - xi_3 + 1)*std::pow(-2*xi_1 - xi_2 - xi_3 + 1, 4) + 90*std::pow(xi_2 + xi_3 - 1, 5) - 210*std::pow(xi_2 + xi_3 - 1, 3)*std::pow(-2*xi_1 - xi_2 - xi_3 + 1, 2) + 210*std::pow(xi_2 + xi_3 - 1, 2)*std::pow(-2*xi_1 - xi_2 - xi_3 + 1, 3) - 63*std::pow(-2*xi_1 - xi_2 - xi_3 + 1, 5))/(xi_2 + xi_3 - 1) - 1/32*(22*xi_3 - 1)*(30*xi_1*std::pow(xi_2 + xi_3 - 1, 5) + 63*(-xi_2 - xi_3 + 1)*std::pow(-2*xi_1 - xi_2 - xi_3 + 1, 5) + 15*std::pow(xi_2 + xi_3 - 1, 6) + 70*std::pow(xi_2 + xi_3 - 1, 3)*std::pow(-2*xi_1 - xi_2 - xi_3 + 1, 3))*(-968*xi_2*std::pow(xi_3 - 1, 3) - 455*std::pow(xi_3 - 1, 4) + 1734*std::pow(xi_3 - 1, 2)*std::pow(2*xi_2 + xi_3 - 1, 2) - 2244*(xi_3 - 1)*std::pow(2*xi_2 + xi_3 - 1, 3) + 969*std::pow(2*xi_2 + xi_3 - 1, 4))/std::pow(xi_2 + xi_3 - 1, 2) + (11/16)*(30*xi_1*std::pow(xi_2 + xi_3 - 1, 5) + 63*(-xi_2 - xi_3 + 1)*std::pow(-2*xi_1 - xi_2 - xi_3 + 1, 5) + 15*std::pow(xi_2 + xi_3 - 1, 6) + 70*std::pow(xi_2 + xi_3 - 1, 3)*std::pow(-2*xi_1 - xi_2 - xi_3 + 1, 3))*(-968*xi_2*std::pow(xi_3 - 1, 3) - 455*std::pow(xi_3 - 1, 4) + 1734*std::pow(xi_3 - 1, 2)*std::pow(2*xi_2 + xi_3 - 1, 2) - 2244*(xi_3 - 1)*std::pow(2*xi_2 + xi_3 - 1, 3) + 969*std::pow(2*xi_2 + xi_3 - 1, 4))/(xi_2 + xi_3 - 1);
  270 => (1/256)*(30*xi_1*std::pow(xi_2 + xi_3 - 1, 5) + 15*std::pow(xi_2 + xi_3 - 1, 6) - 70*std::pow(xi_2 + xi_3 - 1, 3)*std::pow(2*xi_1 + xi_2 + xi_3 - 1, 3) + 63*(xi_2 + xi_3 - 1)*std::pow(2*xi_1 + xi_2 + xi_3 - 1, 5))*(11050*xi_2*std::pow(xi_3 - 1, 4) + 8148*std::pow(xi_3 - 1, 5) - 16830*std::pow(xi_3 - 1, 4)*(4*xi_2 + 2*xi_3 - 2) + 78030*std::pow(xi_3 - 1, 3)*std::pow(2*xi_2 + xi_3 - 1, 2) - 67830*std::pow(xi_3 - 1, 2)*std::pow(2*xi_2 + xi_3 - 1, 3) + 101745*(xi_3 - 1)*std::pow(2*xi_2 + xi_3 - 1, 4) - 53295*(2*xi_3 - 2)*std::pow(2*xi_2 + xi_3 - 1, 4) + 20349*std::pow(2*xi_2 + xi_3 - 1, 5))/((xi_3 - 1)*(xi_2 + xi_3 - 1)) + (1/256)*(150*xi_1*std::pow(xi_2 + xi_3 - 1, 4) + 90*std::pow(xi_2 + xi_3 - 1, 5) - 210*std::pow(xi_2 + xi_3 - 1, 3)*std::pow(2*xi_1 + xi_2 + xi_3 - 1, 2) - 210*std::pow(xi_2 + xi_3 - 1, 2)*std::pow(2*xi_1 + xi_2 + xi_3 - 1, 3) + 315*(xi_2 + xi_3 - 1)*std::pow(2*xi_1 + xi_2 + xi_3 - 1, 4) + 63*std::pow(2*xi_1 + xi_2 + xi_3 - 1, 5))*(2210*xi_2*std::pow(xi_3 - 1, 5) + 1358*std::pow(xi_3 - 1, 6) - 16830*std::pow(xi_3 - 1, 4)*std::pow(2*xi_2 + xi_3 - 1, 2) + 48450*std::pow(xi_3 - 1, 3)*std::pow(2*xi_2 + xi_3 - 1, 3) - 53295*std::pow(xi_3 - 1, 2)*std::pow(2*xi_2 + xi_3 - 1, 4) + 20349*(xi_3 - 1)*std::pow(2*xi_2 + xi_3 - 1, 5))/((xi_3 - 1)*(xi_2 + xi_3 - 1)) - 1/256*(30*xi_1*std::pow(xi_2 + xi_3 - 1, 5) + 15*std::pow(xi_2 + xi_3 - 1, 6) - 70*std::pow(xi_2 + xi_3 - 1, 3)*std::pow(2*xi_1 + xi_2 + xi_3 - 1, 3) + 63*(xi_2 + xi_3 - 1)*std::pow(2*xi_1 + xi_2 + xi_3 - 1, 5))*(2210*xi_2*std::pow(xi_3 - 1, 5) + 1358*std::pow(xi_3 - 1, 6) - 16830*std::pow(xi_3 - 1, 4)*std::pow(2*xi_2 + xi_3 - 1, 2) + 48450*std::pow(xi_3 - 1, 3)*std::pow(2*xi_2 + xi_3 - 1, 3) - 53295*std::pow(xi_3 - 1, 2)*std::pow(2*xi_2 + xi_3 - 1, 4) + 20349*(xi_3 - 1)*std::pow(2*xi_2 + xi_3 - 1, 5))/((xi_3 - 1)*std::pow(xi_2 + xi_3 - 1, 2)) - 1/256*(30*xi_1*std::pow(xi_2 + xi_3 - 1, 5) + 15*std::pow(xi_2 + xi_3 - 1, 6) - 70*std::pow(xi_2 + xi_3 - 1, 3)*std::pow(2*xi_1 + xi_2 + xi_3 - 1, 3) + 63*(xi_2 + xi_3 - 1)*std::pow(2*xi_1 + xi_2 + xi_3 - 1, 5))*(2210*xi_2*std::pow(xi_3 - 1, 5) + 1358*std::pow(xi_3 - 1, 6) - 16830*std::pow(xi_3 - 1, 4)*std::pow(2*xi_2 + xi_3 - 1, 2) + 48450*std::pow(xi_3 - 1, 3)*std::pow(2*xi_2 + xi_3 - 1, 3) - 53295*std::pow(xi_3 - 1, 2)*std::pow(2*xi_2 + xi_3 - 1, 4) + 20349*(xi_3 - 1)*std::pow(2*xi_2 + xi_3 - 1, 5))/(std::pow(xi_3 - 1, 2)*(xi_2 + xi_3 - 1));
  271 => (1/256)*(132240*xi_3 + 58520*std::pow(2*xi_3 - 1, 3) + 111720*std::pow(2*xi_3 - 1, 2) - 54416)*(-5*std::pow(xi_2 + xi_3 - 1, 6) + 105*std::pow(xi_2 + xi_3 - 1, 4)*std::pow(2*xi_1 + xi_2 + xi_3 - 1, 2) - 315*std::pow(xi_2 + xi_3 - 1, 2)*std::pow(2*xi_1 + xi_2 + xi_3 - 1, 4) + 231*std::pow(2*xi_1 + xi_2 + xi_3 - 1, 6)) + (1/256)*(11704*xi_3 + 7315*std::pow(2*xi_3 - 1, 4) + 18620*std::pow(2*xi_3 - 1, 3) + 16530*std::pow(2*xi_3 - 1, 2) - 5209)*(-30*std::pow(xi_2 + xi_3 - 1, 5) + 105*std::pow(xi_2 + xi_3 - 1, 4)*(4*xi_1 + 2*xi_2 + 2*xi_3 - 2) + 420*std::pow(xi_2 + xi_3 - 1, 3)*std::pow(2*xi_1 + xi_2 + xi_3 - 1, 2) - 1260*std::pow(xi_2 + xi_3 - 1, 2)*std::pow(2*xi_1 + xi_2 + xi_3 - 1, 3) - 315*(2*xi_2 + 2*xi_3 - 2)*std::pow(2*xi_1 + xi_2 + xi_3 - 1, 4) + 1386*std::pow(2*xi_1 + xi_2 + xi_3 - 1, 5));
  272 => (1/32)*(15*xi_2 + xi_3 - 1)*(6720*xi_3 + 2310*std::pow(2*xi_3 - 1, 2) - 2190)*(-5*std::pow(xi_2 + xi_3 - 1, 6) + 105*std::pow(xi_2 + xi_3 - 1, 4)*std::pow(2*xi_1 + xi_2 + xi_3 - 1, 2) - 315*std::pow(xi_2 + xi_3 - 1, 2)*std::pow(2*xi_1 + xi_2 + xi_3 - 1, 4) + 231*std::pow(2*xi_1 + xi_2 + xi_3 - 1, 6)) + (1/32)*(15*xi_2 + xi_3 - 1)*(1170*xi_3 + 385*std::pow(2*xi_3 - 1, 3) + 840*std::pow(2*xi_3 - 1, 2) - 457)*(-30*std::pow(xi_2 + xi_3 - 1, 5) + 105*std::pow(xi_2 + xi_3 - 1, 4)*(4*xi_1 + 2*xi_2 + 2*xi_3 - 2) + 420*std::pow(xi_2 + xi_3 - 1, 3)*std::pow(2*xi_1 + xi_2 + xi_3 - 1, 2) - 1260*std::pow(xi_2 + xi_3 - 1, 2)*std::pow(2*xi_1 + xi_2 + xi_3 - 1, 3) - 315*(2*xi_2 + 2*xi_3 - 2)*std::pow(2*xi_1 + xi_2 + xi_3 - 1, 4) + 1386*std::pow(2*xi_1 + xi_2 + xi_3 - 1, 5)) + (1/32)*(1170*xi_3 + 385*std::pow(2*xi_3 - 1, 3) + 840*std::pow(2*xi_3 - 1, 2) - 457)*(-5*std::pow(xi_2 + xi_3 - 1, 6) + 105*std::pow(xi_2 + xi_3 - 1, 4)*std::pow(2*xi_1 + xi_2 + xi_3 - 1, 2) - 315*std::pow(xi_2 + xi_3 - 1, 2)*std::pow(2*xi_1 + xi_2 + xi_3 - 1, 4) + 231*std::pow(2*xi_1 + xi_2 + xi_3 - 1, 6));
  273 => (1848*xi_3 - 168)*(104*xi_2*std::pow(xi_3 - 1, 2) + 33*std::pow(xi_3 - 1, 3) - 34*(xi_3 - 1)*std::pow(2*xi_2 + xi_3 - 1, 2))*(5*std::pow(xi_2 + xi_3 - 1, 6) - 105*std::pow(xi_2 + xi_3 - 1, 4)*std::pow(2*xi_1 + xi_2 + xi_3 - 1, 2) + 315*std::pow(xi_2 + xi_3 - 1, 2)*std::pow(2*xi_1 + xi_2 + xi_3 - 1, 4) - 231*std::pow(2*xi_1 + xi_2 + xi_3 - 1, 6))/(64*xi_3 - 64) + (756*xi_3 + 231*std::pow(2*xi_3 - 1, 2) - 227)*(104*xi_2*std::pow(xi_3 - 1, 2) + 33*std::pow(xi_3 - 1, 3) - 34*(xi_3 - 1)*std::pow(2*xi_2 + xi_3 - 1, 2))*(30*std::pow(xi_2 + xi_3 - 1, 5) - 105*std::pow(xi_2 + xi_3 - 1, 4)*(4*xi_1 + 2*xi_2 + 2*xi_3 - 2) - 420*std::pow(xi_2 + xi_3 - 1, 3)*std::pow(2*xi_1 + xi_2 + xi_3 - 1, 2) + 1260*std::pow(xi_2 + xi_3 - 1, 2)*std::pow(2*xi_1 + xi_2 + xi_3 - 1, 3) + 315*(2*xi_2 + 2*xi_3 - 2)*std::pow(2*xi_1 + xi_2 + xi_3 - 1, 4) - 1386*std::pow(2*xi_1 + xi_2 + xi_3 - 1, 5))/(64*xi_3 - 64) + (756*xi_3 + 231*std::pow(2*xi_3 - 1, 2) - 227)*(104*xi_2*(2*xi_3 - 2) + 99*std::pow(xi_3 - 1, 2) - 34*(xi_3 - 1)*(4*xi_2 + 2*xi_3 - 2) - 34*std::pow(2*xi_2 + xi_3 - 1, 2))*(5*std::pow(xi_2 + xi_3 - 1, 6) - 105*std::pow(xi_2 + xi_3 - 1, 4)*std::pow(2*xi_1 + xi_2 + xi_3 - 1, 2) + 315*std::pow(xi_2 + xi_3 - 1, 2)*std::pow(2*xi_1 + xi_2 + xi_3 - 1, 4) - 231*std::pow(2*xi_1 + xi_2 + xi_3 - 1, 6))/(64*xi_3 - 64) - 64*(756*xi_3 + 231*std::pow(2*xi_3 - 1, 2) - 227)*(104*xi_2*std::pow(xi_3 - 1, 2) + 33*std::pow(xi_3 - 1, 3) - 34*(xi_3 - 1)*std::pow(2*xi_2 + xi_3 - 1, 2))*(5*std::pow(xi_2 + xi_3 - 1, 6) - 105*std::pow(xi_2 + xi_3 - 1, 4)*std::pow(2*xi_1 + xi_2 + xi_3 - 1, 2) + 315*std::pow(xi_2 + xi_3 - 1, 2)*std::pow(2*xi_1 + xi_2 + xi_3 - 1, 4) - 231*std::pow(2*xi_1 + xi_2 + xi_3 - 1, 6))/std::pow(64*xi_3 - 64, 2);
  274 => (1/128)*(22*xi_3 - 1)*(2550*xi_2*std::pow(xi_3 - 1, 3) - 1989*std::pow(-xi_3 + 1, 2)*std::pow(-2*xi_2 - xi_3 + 1, 2) + 969*(-xi_3 + 1)*std::pow(-2*xi_2 - xi_3 + 1, 3) + 1028*std::pow(xi_3 - 1, 4))*(-30*std::pow(xi_2 + xi_3 - 1, 5) + 105*std::pow(xi_2 + xi_3 - 1, 4)*(4*xi_1 + 2*xi_2 + 2*xi_3 - 2) + 420*std::pow(xi_2 + xi_3 - 1, 3)*std::pow(2*xi_1 + xi_2 + xi_3 - 1, 2) - 1260*std::pow(xi_2 + xi_3 - 1, 2)*std::pow(2*xi_1 + xi_2 + xi_3 - 1, 3) - 315*(2*xi_2 + 2*xi_3 - 2)*std::pow(2*xi_1 + xi_2 + xi_3 - 1, 4) + 1386*std::pow(2*xi_1 + xi_2 + xi_3 - 1, 5))/(xi_3 - 1) + (1/128)*(22*xi_3 - 1)*(-5*std::pow(xi_2 + xi_3 - 1, 6) + 105*std::pow(xi_2 + xi_3 - 1, 4)*std::pow(2*xi_1 + xi_2 + xi_3 - 1, 2) - 315*std::pow(xi_2 + xi_3 - 1, 2)*std::pow(2*xi_1 + xi_2 + xi_3 - 1, 4) + 231*std::pow(2*xi_1 + xi_2 + xi_3 - 1, 6))*(7650*xi_2*std::pow(xi_3 - 1, 2) - 1989*std::pow(-xi_3 + 1, 2)*(4*xi_2 + 2*xi_3 - 2) - 2907*(-xi_3 + 1)*std::pow(-2*xi_2 - xi_3 + 1, 2) + 4112*std::pow(xi_3 - 1, 3) - 1989*(2*xi_3 - 2)*std::pow(-2*xi_2 - xi_3 + 1, 2) - 969*std::pow(-2*xi_2 - xi_3 + 1, 3))/(xi_3 - 1) + (11/64)*(2550*xi_2*std::pow(xi_3 - 1, 3) - 1989*std::pow(-xi_3 + 1, 2)*std::pow(-2*xi_2 - xi_3 + 1, 2) + 969*(-xi_3 + 1)*std::pow(-2*xi_2 - xi_3 + 1, 3) + 1028*std::pow(xi_3 - 1, 4))*(-5*std::pow(xi_2 + xi_3 - 1, 6) + 105*std::pow(xi_2 + xi_3 - 1, 4)*std::pow(2*xi_1 + xi_2 + xi_3 - 1, 2) - 315*std::pow(xi_2 + xi_3 - 1, 2)*std::pow(2*xi_1 + xi_2 + xi_3 - 1, 4) + 231*std::pow(2*xi_1 + xi_2 + xi_3 - 1, 6))/(xi_3 - 1) - 1/128*(22*xi_3 - 1)*(2550*xi_2*std::pow(xi_3 - 1, 3) - 1989*std::pow(-xi_3 + 1, 2)*std::pow(-2*xi_2 - xi_3 + 1, 2) + 969*(-xi_3 + 1)*std::pow(-2*xi_2 - xi_3 + 1, 3) + 1028*std::pow(xi_3 - 1, 4))*(-5*std::pow(xi_2 + xi_3 - 1, 6) + 105*std::pow(xi_2 + xi_3 - 1, 4)*std::pow(2*xi_1 + xi_2 + xi_3 - 1, 2) - 315*std::pow(xi_2 + xi_3 - 1, 2)*std::pow(2*xi_1 + xi_2 + xi_3 - 1, 4) + 231*std::pow(2*xi_1 + xi_2 + xi_3 - 1, 6))/std::pow(xi_3 - 1, 2);
  275 => (1/256)*(-5*std::pow(xi_2 + xi_3 - 1, 6) + 105*std::pow(xi_2 + xi_3 - 1, 4)*std::pow(2*xi_1 + xi_2 + xi_3 - 1, 2) - 315*std::pow(xi_2 + xi_3 - 1, 2)*std::pow(2*xi_1 + xi_2 + xi_3 - 1, 4) + 231*std::pow(2*xi_1 + xi_2 + xi_3 - 1, 6))*(-25272*xi_2*std::pow(xi_3 - 1, 2) - 15212*std::pow(xi_3 - 1, 3) + 12654*std::pow(xi_3 - 1, 2)*(4*xi_2 + 2*xi_3 - 2) - 44460*(xi_3 - 1)*std::pow(2*xi_2 + xi_3 - 1, 2) + 12654*(2*xi_3 - 2)*std::pow(2*xi_2 + xi_3 - 1, 2) + 9120*std::pow(2*xi_2 + xi_3 - 1, 3)) + (1/256)*(-8424*xi_2*std::pow(xi_3 - 1, 3) - 3803*std::pow(xi_3 - 1, 4) + 12654*std::pow(xi_3 - 1, 2)*std::pow(2*xi_2 + xi_3 - 1, 2) - 14820*(xi_3 - 1)*std::pow(2*xi_2 + xi_3 - 1, 3) + 5985*std::pow(2*xi_2 + xi_3 - 1, 4))*(-30*std::pow(xi_2 + xi_3 - 1, 5) + 105*std::pow(xi_2 + xi_3 - 1, 4)*(4*xi_1 + 2*xi_2 + 2*xi_3 - 2) + 420*std::pow(xi_2 + xi_3 - 1, 3)*std::pow(2*xi_1 + xi_2 + xi_3 - 1, 2) - 1260*std::pow(xi_2 + xi_3 - 1, 2)*std::pow(2*xi_1 + xi_2 + xi_3 - 1, 3) - 315*(2*xi_2 + 2*xi_3 - 2)*std::pow(2*xi_1 + xi_2 + xi_3 - 1, 4) + 1386*std::pow(2*xi_1 + xi_2 + xi_3 - 1, 5));
  276 => -(6720*xi_3 + 2310*std::pow(2*xi_3 - 1, 2) - 2190)*(70*xi_1*std::pow(xi_2 + xi_3 - 1, 7) + 35*std::pow(xi_2 + xi_3 - 1, 8) - 315*std::pow(xi_2 + xi_3 - 1, 5)*std::pow(2*xi_1 + xi_2 + xi_3 - 1, 3) + 693*std::pow(xi_2 + xi_3 - 1, 3)*std::pow(2*xi_1 + xi_2 + xi_3 - 1, 5) - 429*(xi_2 + xi_3 - 1)*std::pow(2*xi_1 + xi_2 + xi_3 - 1, 7))/(32*xi_2 + 32*xi_3 - 32) - (1170*xi_3 + 385*std::pow(2*xi_3 - 1, 3) + 840*std::pow(2*xi_3 - 1, 2) - 457)*(490*xi_1*std::pow(xi_2 + xi_3 - 1, 6) + 280*std::pow(xi_2 + xi_3 - 1, 7) - 945*std::pow(xi_2 + xi_3 - 1, 5)*std::pow(2*xi_1 + xi_2 + xi_3 - 1, 2) - 1575*std::pow(xi_2 + xi_3 - 1, 4)*std::pow(2*xi_1 + xi_2 + xi_3 - 1, 3) + 3465*std::pow(xi_2 + xi_3 - 1, 3)*std::pow(2*xi_1 + xi_2 + xi_3 - 1, 4) + 2079*std::pow(xi_2 + xi_3 - 1, 2)*std::pow(2*xi_1 + xi_2 + xi_3 - 1, 5) - 3003*(xi_2 + xi_3 - 1)*std::pow(2*xi_1 + xi_2 + xi_3 - 1, 6) - 429*std::pow(2*xi_1 + xi_2 + xi_3 - 1, 7))/(32*xi_2 + 32*xi_3 - 32) + 32*(1170*xi_3 + 385*std::pow(2*xi_3 - 1, 3) + 840*std::pow(2*xi_3 - 1, 2) - 457)*(70*xi_1*std::pow(xi_2 + xi_3 - 1, 7) + 35*std::pow(xi_2 + xi_3 - 1, 8) - 315*std::pow(xi_2 + xi_3 - 1, 5)*std::pow(2*xi_1 + xi_2 + xi_3 - 1, 3) + 693*std::pow(xi_2 + xi_3 - 1, 3)*std::pow(2*xi_1 + xi_2 + xi_3 - 1, 5) - 429*(xi_2 + xi_3 - 1)*std::pow(2*xi_1 + xi_2 + xi_3 - 1, 7))/std::pow(32*xi_2 + 32*xi_3 - 32, 2);
  277 => -(1848*xi_3 - 168)*(17*xi_2 + xi_3 - 1)*(70*xi_1*std::pow(xi_2 + xi_3 - 1, 7) + 35*std::pow(xi_2 + xi_3 - 1, 8) - 315*std::pow(xi_2 + xi_3 - 1, 5)*std::pow(2*xi_1 + xi_2 + xi_3 - 1, 3) + 693*std::pow(xi_2 + xi_3 - 1, 3)*std::pow(2*xi_1 + xi_2 + xi_3 - 1, 5) - 429*(xi_2 + xi_3 - 1)*std::pow(2*xi_1 + xi_2 + xi_3 - 1, 7))/(64*xi_2 + 64*xi_3 - 64) - (17*xi_2 + xi_3 - 1)*(756*xi_3 + 231*std::pow(2*xi_3 - 1, 2) - 227)*(490*xi_1*std::pow(xi_2 + xi_3 - 1, 6) + 280*std::pow(xi_2 + xi_3 - 1, 7) - 945*std::pow(xi_2 + xi_3 - 1, 5)*std::pow(2*xi_1 + xi_2 + xi_3 - 1, 2) - 1575*std::pow(xi_2 + xi_3 - 1, 4)*std::pow(2*xi_1 + xi_2 + xi_3 - 1, 3) + 3465*std::pow(xi_2 + xi_3 - 1, 3)*std::pow(2*xi_1 + xi_2 + xi_3 - 1, 4) + 2079*std::pow(xi_2 + xi_3 - 1, 2)*std::pow(2*xi_1 + xi_2 + xi_3 - 1, 5) - 3003*(xi_2 + xi_3 - 1)*std::pow(2*xi_1 + xi_2 + xi_3 - 1, 6) - 429*std::pow(2*xi_1 + xi_2 + xi_3 - 1, 7))/(64*xi_2 + 64*xi_3 - 64) + 64*(17*xi_2 + xi_3 - 1)*(756*xi_3 + 231*std::pow(2*xi_3 - 1, 2) - 227)*(70*xi_1*std::pow(xi_2 + xi_3 - 1, 7) + 35*std::pow(xi_2 + xi_3 - 1, 8) - 315*std::pow(xi_2 + xi_3 - 1, 5)*std::pow(2*xi_1 + xi_2 + xi_3 - 1, 3) + 693*std::pow(xi_2 + xi_3 - 1, 3)*std::pow(2*xi_1 + xi_2 + xi_3 - 1, 5) - 429*(xi_2 + xi_3 - 1)*std::pow(2*xi_1 + xi_2 + xi_3 - 1, 7))/std::pow(64*xi_2 + 64*xi_3 - 64, 2) - (756*xi_3 + 231*std::pow(2*xi_3 - 1, 2) - 227)*(70*xi_1*std::pow(xi_2 + xi_3 - 1, 7) + 35*std::pow(xi_2 + xi_3 - 1, 8) - 315*std::pow(xi_2 + xi_3 - 1, 5)*std::pow(2*xi_1 + xi_2 + xi_3 - 1, 3) + 693*std::pow(xi_2 + xi_3 - 1, 3)*std::pow(2*xi_1 + xi_2 + xi_3 - 1, 5) - 429*(xi_2 + xi_3 - 1)*std::pow(2*xi_1 + xi_2 + xi_3 - 1, 7))/(64*xi_2 + 64*xi_3 - 64);
  278 => (1/64)*(22*xi_3 - 1)*(540*xi_2*std::pow(xi_3 - 1, 2) + 171*(-xi_3 + 1)*std::pow(-2*xi_2 - xi_3 + 1, 2) + 167*std::pow(xi_3 - 1, 3))*(490*xi_1*std::pow(xi_2 + xi_3 - 1, 6) + 945*std::pow(-xi_2 - xi_3 + 1, 5)*std::pow(2*xi_1 + xi_2 + xi_3 - 1, 2) - 1575*std::pow(-xi_2 - xi_3 + 1, 4)*std::pow(2*xi_1 + xi_2 + xi_3 - 1, 3) + 3003*(-xi_2 - xi_3 + 1)*std::pow(2*xi_1 + xi_2 + xi_3 - 1, 6) + 280*std::pow(xi_2 + xi_3 - 1, 7) + 3465*std::pow(xi_2 + xi_3 - 1, 3)*std::pow(2*xi_1 + xi_2 + xi_3 - 1, 4) + 2079*std::pow(xi_2 + xi_3 - 1, 2)*std::pow(2*xi_1 + xi_2 + xi_3 - 1, 5) - 429*std::pow(2*xi_1 + xi_2 + xi_3 - 1, 7))/((xi_3 - 1)*(xi_2 + xi_3 - 1)) + (1/64)*(22*xi_3 - 1)*(540*xi_2*(2*xi_3 - 2) + 171*(-xi_3 + 1)*(4*xi_2 + 2*xi_3 - 2) + 501*std::pow(xi_3 - 1, 2) - 171*std::pow(-2*xi_2 - xi_3 + 1, 2))*(70*xi_1*std::pow(xi_2 + xi_3 - 1, 7) + 315*std::pow(-xi_2 - xi_3 + 1, 5)*std::pow(2*xi_1 + xi_2 + xi_3 - 1, 3) + 429*(-xi_2 - xi_3 + 1)*std::pow(2*xi_1 + xi_2 + xi_3 - 1, 7) + 35*std::pow(xi_2 + xi_3 - 1, 8) + 693*std::pow(xi_2 + xi_3 - 1, 3)*std::pow(2*xi_1 + xi_2 + xi_3 - 1, 5))/((xi_3 - 1)*(xi_2 + xi_3 - 1)) - 1/64*(22*xi_3 - 1)*(540*xi_2*std::pow(xi_3 - 1, 2) + 171*(-xi_3 + 1)*std::pow(-2*xi_2 - xi_3 + 1, 2) + 167*std::pow(xi_3 - 1, 3))*(70*xi_1*std::pow(xi_2 + xi_3 - 1, 7) + 315*std::pow(-xi_2 - xi_3 + 1, 5)*std::pow(2*xi_1 + xi_2 + xi_3 - 1, 3) + 429*(-xi_2 - xi_3 + 1)*std::pow(2*xi_1 + xi_2 + xi_3 - 1, 7) + 35*std::pow(xi_2 + xi_3 - 1, 8) + 693*std::pow(xi_2 + xi_3 - 1, 3)*std::pow(2*xi_1 + xi_2 + xi_3 - 1, 5))/((xi_3 - 1)*std::pow(xi_2 + xi_3 - 1, 2)) + (11/32)*(540*xi_2*std::pow(xi_3 - 1, 2) + 171*(-xi_3 + 1)*std::pow(-2*xi_2 - xi_3 + 1, 2) + 167*std::pow(xi_3 - 1, 3))*(70*xi_1*std::pow(xi_2 + xi_3 - 1, 7) + 315*std::pow(-xi_2 - xi_3 + 1, 5)*std::pow(2*xi_1 + xi_2 + xi_3 - 1, 3) + 429*(-xi_2 - xi_3 + 1)*std::pow(2*xi_1 + xi_2 + xi_3 - 1, 7) + 35*std::pow(xi_2 + xi_3 - 1, 8) + 693*std::pow(xi_2 + xi_3 - 1, 3)*std::pow(2*xi_1 + xi_2 + xi_3 - 1, 5))/((xi_3 - 1)*(xi_2 + xi_3 - 1)) - 1/64*(22*xi_3 - 1)*(540*xi_2*std::pow(xi_3 - 1, 2) + 171*(-xi_3 + 1)*std::pow(-2*xi_2 - xi_3 + 1, 2) + 167*std::pow(xi_3 - 1, 3))*(70*xi_1*std::pow(xi_2 + xi_3 - 1, 7) + 315*std::pow(-xi_2 - xi_3 + 1, 5)*std::pow(2*xi_1 + xi_2 + xi_3 - 1, 3) + 429*(-xi_2 - xi_3 + 1)*std::pow(2*xi_1 + xi_2 + xi_3 - 1, 7) + 35*std::pow(xi_2 + xi_3 - 1, 8) + 693*std::pow(xi_2 + xi_3 - 1, 3)*std::pow(2*xi_1 + xi_2 + xi_3 - 1, 5))/(std::pow(xi_3 - 1, 2)*(xi_2 + xi_3 - 1));
  279 => -(1938*xi_2*std::pow(xi_3 - 1, 2) + 764*std::pow(xi_3 - 1, 3) - 1425*(xi_3 - 1)*std::pow(2*xi_2 + xi_3 - 1, 2) + 665*std::pow(2*xi_2 + xi_3 - 1, 3))*(490*xi_1*std::pow(xi_2 + xi_3 - 1, 6) + 280*std::pow(xi_2 + xi_3 - 1, 7) - 945*std::pow(xi_2 + xi_3 - 1, 5)*std::pow(2*xi_1 + xi_2 + xi_3 - 1, 2) - 1575*std::pow(xi_2 + xi_3 - 1, 4)*std::pow(2*xi_1 + xi_2 + xi_3 - 1, 3) + 3465*std::pow(xi_2 + xi_3 - 1, 3)*std::pow(2*xi_1 + xi_2 + xi_3 - 1, 4) + 2079*std::pow(xi_2 + xi_3 - 1, 2)*std::pow(2*xi_1 + xi_2 + xi_3 - 1, 5) - 3003*(xi_2 + xi_3 - 1)*std::pow(2*xi_1 + xi_2 + xi_3 - 1, 6) - 429*std::pow(2*xi_1 + xi_2 + xi_3 - 1, 7))/(64*xi_2 + 64*xi_3 - 64) - (1938*xi_2*(2*xi_3 - 2) + 2292*std::pow(xi_3 - 1, 2) - 1425*(xi_3 - 1)*(4*xi_2 + 2*xi_3 - 2) + 570*std::pow(2*xi_2 + xi_3 - 1, 2))*(70*xi_1*std::pow(xi_2 + xi_3 - 1, 7) + 35*std::pow(xi_2 + xi_3 - 1, 8) - 315*std::pow(xi_2 + xi_3 - 1, 5)*std::pow(2*xi_1 + xi_2 + xi_3 - 1, 3) + 693*std::pow(xi_2 + xi_3 - 1, 3)*std::pow(2*xi_1 + xi_2 + xi_3 - 1, 5) - 429*(xi_2 + xi_3 - 1)*std::pow(2*xi_1 + xi_2 + xi_3 - 1, 7))/(64*xi_2 + 64*xi_3 - 64) + 64*(1938*xi_2*std::pow(xi_3 - 1, 2) + 764*std::pow(xi_3 - 1, 3) - 1425*(xi_3 - 1)*std::pow(2*xi_2 + xi_3 - 1, 2) + 665*std::pow(2*xi_2 + xi_3 - 1, 3))*(70*xi_1*std::pow(xi_2 + xi_3 - 1, 7) + 35*std::pow(xi_2 + xi_3 - 1, 8) - 315*std::pow(xi_2 + xi_3 - 1, 5)*std::pow(2*xi_1 + xi_2 + xi_3 - 1, 3) + 693*std::pow(xi_2 + xi_3 - 1, 3)*std::pow(2*xi_1 + xi_2 + xi_3 - 1, 5) - 429*(xi_2 + xi_3 - 1)*std::pow(2*xi_1 + xi_2 + xi_3 - 1, 7))/std::pow(64*xi_2 + 64*xi_3 - 64, 2);
  280 => (1/512)*(1848*xi_3 - 168)*(35*std::pow(xi_2 + xi_3 - 1, 8) - 1260*std::pow(xi_2 + xi_3 - 1, 6)*std::pow(2*xi_1 + xi_2 + xi_3 - 1, 2) + 6930*std::pow(xi_2 + xi_3 - 1, 4)*std::pow(2*xi_1 + xi_2 + xi_3 - 1, 4) - 12012*std::pow(xi_2 + xi_3 - 1, 2)*std::pow(2*xi_1 + xi_2 + xi_3 - 1, 6) + 6435*std::pow(2*xi_1 + xi_2 + xi_3 - 1, 8)) + (1/512)*(756*xi_3 + 231*std::pow(2*xi_3 - 1, 2) - 227)*(280*std::pow(xi_2 + xi_3 - 1, 7) - 1260*std::pow(xi_2 + xi_3 - 1, 6)*(4*xi_1 + 2*xi_2 + 2*xi_3 - 2) - 7560*std::pow(xi_2 + xi_3 - 1, 5)*std::pow(2*xi_1 + xi_2 + xi_3 - 1, 2) + 27720*std::pow(xi_2 + xi_3 - 1, 4)*std::pow(2*xi_1 + xi_2 + xi_3 - 1, 3) + 27720*std::pow(xi_2 + xi_3 - 1, 3)*std::pow(2*xi_1 + xi_2 + xi_3 - 1, 4) - 72072*std::pow(xi_2 + xi_3 - 1, 2)*std::pow(2*xi_1 + xi_2 + xi_3 - 1, 5) - 12012*(2*xi_2 + 2*xi_3 - 2)*std::pow(2*xi_1 + xi_2 + xi_3 - 1, 6) + 51480*std::pow(2*xi_1 + xi_2 + xi_3 - 1, 7));
  281 => (1/128)*(22*xi_3 - 1)*(19*xi_2 + xi_3 - 1)*(280*std::pow(xi_2 + xi_3 - 1, 7) - 1260*std::pow(xi_2 + xi_3 - 1, 6)*(4*xi_1 + 2*xi_2 + 2*xi_3 - 2) - 7560*std::pow(xi_2 + xi_3 - 1, 5)*std::pow(2*xi_1 + xi_2 + xi_3 - 1, 2) + 27720*std::pow(xi_2 + xi_3 - 1, 4)*std::pow(2*xi_1 + xi_2 + xi_3 - 1, 3) + 27720*std::pow(xi_2 + xi_3 - 1, 3)*std::pow(2*xi_1 + xi_2 + xi_3 - 1, 4) - 72072*std::pow(xi_2 + xi_3 - 1, 2)*std::pow(2*xi_1 + xi_2 + xi_3 - 1, 5) - 12012*(2*xi_2 + 2*xi_3 - 2)*std::pow(2*xi_1 + xi_2 + xi_3 - 1, 6) + 51480*std::pow(2*xi_1 + xi_2 + xi_3 - 1, 7)) + (1/128)*(22*xi_3 - 1)*(35*std::pow(xi_2 + xi_3 - 1, 8) - 1260*std::pow(xi_2 + xi_3 - 1, 6)*std::pow(2*xi_1 + xi_2 + xi_3 - 1, 2) + 6930*std::pow(xi_2 + xi_3 - 1, 4)*std::pow(2*xi_1 + xi_2 + xi_3 - 1, 4) - 12012*std::pow(xi_2 + xi_3 - 1, 2)*std::pow(2*xi_1 + xi_2 + xi_3 - 1, 6) + 6435*std::pow(2*xi_1 + xi_2 + xi_3 - 1, 8)) + (11/64)*(19*xi_2 + xi_3 - 1)*(35*std::pow(xi_2 + xi_3 - 1, 8) - 1260*std::pow(xi_2 + xi_3 - 1, 6)*std::pow(2*xi_1 + xi_2 + xi_3 - 1, 2) + 6930*std::pow(xi_2 + xi_3 - 1, 4)*std::pow(2*xi_1 + xi_2 + xi_3 - 1, 4) - 12012*std::pow(xi_2 + xi_3 - 1, 2)*std::pow(2*xi_1 + xi_2 + xi_3 - 1, 6) + 6435*std::pow(2*xi_1 + xi_2 + xi_3 - 1, 8));
  282 => -(340*xi_2*std::pow(xi_3 - 1, 2) + 103*std::pow(xi_3 - 1, 3) - 105*(xi_3 - 1)*std::pow(2*xi_2 + xi_3 - 1, 2))*(280*std::pow(xi_2 + xi_3 - 1, 7) - 1260*std::pow(xi_2 + xi_3 - 1, 6)*(4*xi_1 + 2*xi_2 + 2*xi_3 - 2) - 7560*std::pow(xi_2 + xi_3 - 1, 5)*std::pow(2*xi_1 + xi_2 + xi_3 - 1, 2) + 27720*std::pow(xi_2 + xi_3 - 1, 4)*std::pow(2*xi_1 + xi_2 + xi_3 - 1, 3) + 27720*std::pow(xi_2 + xi_3 - 1, 3)*std::pow(2*xi_1 + xi_2 + xi_3 - 1, 4) - 72072*std::pow(xi_2 + xi_3 - 1, 2)*std::pow(2*xi_1 + xi_2 + xi_3 - 1, 5) - 12012*(2*xi_2 + 2*xi_3 - 2)*std::pow(2*xi_1 + xi_2 + xi_3 - 1, 6) + 51480*std::pow(2*xi_1 + xi_2 + xi_3 - 1, 7))/(256*xi_3 - 256) - (340*xi_2*(2*xi_3 - 2) + 309*std::pow(xi_3 - 1, 2) - 105*(xi_3 - 1)*(4*xi_2 + 2*xi_3 - 2) - 105*std::pow(2*xi_2 + xi_3 - 1, 2))*(35*std::pow(xi_2 + xi_3 - 1, 8) - 1260*std::pow(xi_2 + xi_3 - 1, 6)*std::pow(2*xi_1 + xi_2 + xi_3 - 1, 2) + 6930*std::pow(xi_2 + xi_3 - 1, 4)*std::pow(2*xi_1 + xi_2 + xi_3 - 1, 4) - 12012*std::pow(xi_2 + xi_3 - 1, 2)*std::pow(2*xi_1 + xi_2 + xi_3 - 1, 6) + 6435*std::pow(2*xi_1 + xi_2 + xi_3 - 1, 8))/(256*xi_3 - 256) + 256*(340*xi_2*std::pow(xi_3 - 1, 2) + 103*std::pow(xi_3 - 1, 3) - 105*(xi_3 - 1)*std::pow(2*xi_2 + xi_3 - 1, 2))*(35*std::pow(xi_2 + xi_3 - 1, 8) - 1260*std::pow(xi_2 + xi_3 - 1, 6)*std::pow(2*xi_1 + xi_2 + xi_3 - 1, 2) + 6930*std::pow(xi_2 + xi_3 - 1, 4)*std::pow(2*xi_1 + xi_2 + xi_3 - 1, 4) - 12012*std::pow(xi_2 + xi_3 - 1, 2)*std::pow(2*xi_1 + xi_2 + xi_3 - 1, 6) + 6435*std::pow(2*xi_1 + xi_2 + xi_3 - 1, 8))/std::pow(256*xi_3 - 256, 2);
  283 => (1/128)*(22*xi_3 - 1)*(5670*xi_1*std::pow(xi_2 + xi_3 - 1, 8) - 90090*std::pow(-xi_2 - xi_3 + 1, 5)*std::pow(-2*xi_1 - xi_2 - xi_3 + 1, 4) - 90090*std::pow(-xi_2 - xi_3 + 1, 4)*std::pow(-2*xi_1 - xi_2 - xi_3 + 1, 5) - 109395*(-xi_2 - xi_3 + 1)*std::pow(-2*xi_1 - xi_2 - xi_3 + 1, 8) + 3150*std::pow(xi_2 + xi_3 - 1, 9) - 13860*std::pow(xi_2 + xi_3 - 1, 7)*std::pow(-2*xi_1 - xi_2 - xi_3 + 1, 2) + 32340*std::pow(xi_2 + xi_3 - 1, 6)*std::pow(-2*xi_1 - xi_2 - xi_3 + 1, 3) - 180180*std::pow(xi_2 + xi_3 - 1, 3)*std::pow(-2*xi_1 - xi_2 - xi_3 + 1, 6) + 77220*std::pow(xi_2 + xi_3 - 1, 2)*std::pow(-2*xi_1 - xi_2 - xi_3 + 1, 7) - 12155*std::pow(-2*xi_1 - xi_2 - xi_3 + 1, 9))/(xi_2 + xi_3 - 1) - 1/128*(22*xi_3 - 1)*(630*xi_1*std::pow(xi_2 + xi_3 - 1, 9) + 18018*std::pow(-xi_2 - xi_3 + 1, 5)*std::pow(-2*xi_1 - xi_2 - xi_3 + 1, 5) + 12155*(-xi_2 - xi_3 + 1)*std::pow(-2*xi_1 - xi_2 - xi_3 + 1, 9) + 315*std::pow(xi_2 + xi_3 - 1, 10) + 4620*std::pow(xi_2 + xi_3 - 1, 7)*std::pow(-2*xi_1 - xi_2 - xi_3 + 1, 3) + 25740*std::pow(xi_2 + xi_3 - 1, 3)*std::pow(-2*xi_1 - xi_2 - xi_3 + 1, 7))/std::pow(xi_2 + xi_3 - 1, 2) + (11/64)*(630*xi_1*std::pow(xi_2 + xi_3 - 1, 9) + 18018*std::pow(-xi_2 - xi_3 + 1, 5)*std::pow(-2*xi_1 - xi_2 - xi_3 + 1, 5) + 12155*(-xi_2 - xi_3 + 1)*std::pow(-2*xi_1 - xi_2 - xi_3 + 1, 9) + 315*std::pow(xi_2 + xi_3 - 1, 10) + 4620*std::pow(xi_2 + xi_3 - 1, 7)*std::pow(-2*xi_1 - xi_2 - xi_3 + 1, 3) + 25740*std::pow(xi_2 + xi_3 - 1, 3)*std::pow(-2*xi_1 - xi_2 - xi_3 + 1, 7))/(xi_2 + xi_3 - 1);
  284 => (1/128)*(21*xi_2 + xi_3 - 1)*(5670*xi_1*std::pow(xi_2 + xi_3 - 1, 8) - 90090*std::pow(-xi_2 - xi_3 + 1, 5)*std::pow(-2*xi_1 - xi_2 - xi_3 + 1, 4) - 90090*std::pow(-xi_2 - xi_3 + 1, 4)*std::pow(-2*xi_1 - xi_2 - xi_3 + 1, 5) - 109395*(-xi_2 - xi_3 + 1)*std::pow(-2*xi_1 - xi_2 - xi_3 + 1, 8) + 3150*std::pow(xi_2 + xi_3 - 1, 9) - 13860*std::pow(xi_2 + xi_3 - 1, 7)*std::pow(-2*xi_1 - xi_2 - xi_3 + 1, 2) + 32340*std::pow(xi_2 + xi_3 - 1, 6)*std::pow(-2*xi_1 - xi_2 - xi_3 + 1, 3) - 180180*std::pow(xi_2 + xi_3 - 1, 3)*std::pow(-2*xi_1 - xi_2 - xi_3 + 1, 6) + 77220*std::pow(xi_2 + xi_3 - 1, 2)*std::pow(-2*xi_1 - xi_2 - xi_3 + 1, 7) - 12155*std::pow(-2*xi_1 - xi_2 - xi_3 + 1, 9))/(xi_2 + xi_3 - 1) + (1/128)*(630*xi_1*std::pow(xi_2 + xi_3 - 1, 9) + 18018*std::pow(-xi_2 - xi_3 + 1, 5)*std::pow(-2*xi_1 - xi_2 - xi_3 + 1, 5) + 12155*(-xi_2 - xi_3 + 1)*std::pow(-2*xi_1 - xi_2 - xi_3 + 1, 9) + 315*std::pow(xi_2 + xi_3 - 1, 10) + 4620*std::pow(xi_2 + xi_3 - 1, 7)*std::pow(-2*xi_1 - xi_2 - xi_3 + 1, 3) + 25740*std::pow(xi_2 + xi_3 - 1, 3)*std::pow(-2*xi_1 - xi_2 - xi_3 + 1, 7))/(xi_2 + xi_3 - 1) - 1/128*(21*xi_2 + xi_3 - 1)*(630*xi_1*std::pow(xi_2 + xi_3 - 1, 9) + 18018*std::pow(-xi_2 - xi_3 + 1, 5)*std::pow(-2*xi_1 - xi_2 - xi_3 + 1, 5) + 12155*(-xi_2 - xi_3 + 1)*std::pow(-2*xi_1 - xi_2 - xi_3 + 1, 9) + 315*std::pow(xi_2 + xi_3 - 1, 10) + 4620*std::pow(xi_2 + xi_3 - 1, 7)*std::pow(-2*xi_1 - xi_2 - xi_3 + 1, 3) + 25740*std::pow(xi_2 + xi_3 - 1, 3)*std::pow(-2*xi_1 - xi_2 - xi_3 + 1, 7))/std::pow(xi_2 + xi_3 - 1, 2);
  285 => -315/128*std::pow(xi_2 + xi_3 - 1, 9) + (3465/256)*std::pow(xi_2 + xi_3 - 1, 8)*(4*xi_1 + 2*xi_2 + 2*xi_3 - 2) + (3465/32)*std::pow(xi_2 + xi_3 - 1, 7)*std::pow(2*xi_1 + xi_2 + xi_3 - 1, 2) - 15015/32*std::pow(xi_2 + xi_3 - 1, 6)*std::pow(2*xi_1 + xi_2 + xi_3 - 1, 3) - 45045/64*std::pow(xi_2 + xi_3 - 1, 5)*std::pow(2*xi_1 + xi_2 + xi_3 - 1, 4) + (135135/64)*std::pow(xi_2 + xi_3 - 1, 4)*std::pow(2*xi_1 + xi_2 + xi_3 - 1, 5) + (45045/32)*std::pow(xi_2 + xi_3 - 1, 3)*std::pow(2*xi_1 + xi_2 + xi_3 - 1, 6) - 109395/32*std::pow(xi_2 + xi_3 - 1, 2)*std::pow(2*xi_1 + xi_2 + xi_3 - 1, 7) - 109395/256*(2*xi_2 + 2*xi_3 - 2)*std::pow(2*xi_1 + xi_2 + xi_3 - 1, 8) + (230945/128)*std::pow(2*xi_1 + xi_2 + xi_3 - 1, 9);
}

end Edge.Basis
