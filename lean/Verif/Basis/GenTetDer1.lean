import Verif.Basis.Expr
/-!
Text of the derivatives of the basis functions of tetrahedra.
-/
namespace Edge.Basis

/-- Derivatives with respect to the coordinate 1 of the basis of tetrahedra (src/dg/generated/basis_tet_der_xi1.inc:24-882): the right-hand sides for `b` = 0, ..., 285. Literals `n.0L` are written `n`. -/
def tetDer1 : List Ex := exs% {
  0 => 0;
  1 => 0;
  2 => 0;
  3 => 2;
  4 => 0;
  5 => 0;
  6 => 0;
  7 => 12*xi_3 - 2;
  8 => 10*xi_2 + 2*xi_3 - 2;
  9 => 12*xi_1 + 6*xi_2 + 6*xi_3 - 6;
  10 => 0;
  11 => 0;
  12 => 0;
  13 => 0;
  14 => 28*xi_3 + 14*std::pow(2*xi_3 - 1, 2) - 12;
  15 => 2*(8*xi_3 - 1)*(5*xi_2 + xi_3 - 1);
  16 => -2*(36*xi_2*std::pow(xi_3 - 1, 2) + 17*std::pow(xi_3 - 1, 3) - 21*(xi_3 - 1)*std::pow(2*xi_2 + xi_3 - 1, 2))/(4*xi_3 - 4);
  17 => (1/2)*(8*xi_3 - 1)*(24*xi_1 + 12*xi_2 + 12*xi_3 - 12);
  18 => (1/2)*(7*xi_2 + xi_3 - 1)*(24*xi_1 + 12*xi_2 + 12*xi_3 - 12);
  19 => -(6*std::pow(xi_2 + xi_3 - 1, 3) - 30*(xi_2 + xi_3 - 1)*std::pow(2*xi_1 + xi_2 + xi_3 - 1, 2))/(2*xi_2 + 2*xi_3 - 2);
  20 => 0;
  21 => 0;
  22 => 0;
  23 => 0;
  24 => 0;
  25 => 12*xi_3 + 30*std::pow(2*xi_3 - 1, 3) + 36*std::pow(2*xi_3 - 1, 2) - 8;
  26 => (1/2)*(5*xi_2 + xi_3 - 1)*(108*xi_3 + 45*std::pow(2*xi_3 - 1, 2) - 41);
  27 => -2*(10*xi_3 - 1)*(36*xi_2*std::pow(xi_3 - 1, 2) + 17*std::pow(xi_3 - 1, 3) - 21*(xi_3 - 1)*std::pow(2*xi_2 + xi_3 - 1, 2))/(4*xi_3 - 4);
  28 => 2*std::pow(xi_3 - 1, 3) - 21*(xi_3 - 1)*std::pow(2*xi_2 + xi_3 - 1, 2) + 21*std::pow(2*xi_2 + xi_3 - 1, 3);
  29 => (1/8)*(108*xi_3 + 45*std::pow(2*xi_3 - 1, 2) - 41)*(24*xi_1 + 12*xi_2 + 12*xi_3 - 12);
  30 => (1/2)*(10*xi_3 - 1)*(7*xi_2 + xi_3 - 1)*(24*xi_1 + 12*xi_2 + 12*xi_3 - 12);
  31 => (20*xi_2*std::pow(xi_3 - 1, 2) + 8*std::pow(xi_3 - 1, 3) - 9*(xi_3 - 1)*std::pow(2*xi_2 + xi_3 - 1, 2))*(-24*xi_1 - 12*xi_2 - 12*xi_3 + 12)/(2*xi_3 - 2);
  32 => -(10*xi_3 - 1)*(6*std::pow(xi_2 + xi_3 - 1, 3) - 30*(xi_2 + xi_3 - 1)*std::pow(2*xi_1 + xi_2 + xi_3 - 1, 2))/(2*xi_2 + 2*xi_3 - 2);
  33 => (1/2)*(30*(-xi_2 - xi_3 + 1)*std::pow(2*xi_1 + xi_2 + xi_3 - 1, 2) + 6*std::pow(xi_2 + xi_3 - 1, 3))*(9*xi_2 + xi_3 - 1)/(-xi_2 - xi_3 + 1);
  34 => -15/4*std::pow(xi_2 + xi_3 - 1, 2)*(8*xi_1 + 4*xi_2 + 4*xi_3 - 4) + 35*std::pow(2*xi_1 + xi_2 + xi_3 - 1, 3);
  35 => 0;
  36 => 0;
  37 => 0;
  38 => 0;
  39 => 0;
  40 => 0;
  41 => -27*xi_3 + (495/8)*std::pow(2*xi_3 - 1, 4) + (165/2)*std::pow(2*xi_3 - 1, 3) + (45/4)*std::pow(2*xi_3 - 1, 2) + 91/8;
  42 => (1/2)*(5*xi_2 + xi_3 - 1)*(120*xi_3 + 110*std::pow(2*xi_3 - 1, 3) + 165*std::pow(2*xi_3 - 1, 2) - 59);
  43 => -2*(88*xi_3 + 33*std::pow(2*xi_3 - 1, 2) - 31)*(36*xi_2*std::pow(xi_3 - 1, 2) + 17*std::pow(xi_3 - 1, 3) - 21*(xi_3 - 1)*std::pow(2*xi_2 + xi_3 - 1, 2))/(8*xi_3 - 8);
  44 => (12*xi_3 - 1)*(2*std::pow(xi_3 - 1, 3) - 21*(xi_3 - 1)*std::pow(2*xi_2 + xi_3 - 1, 2) + 21*std::pow(2*xi_2 + xi_3 - 1, 3));
  45 => 22*xi_2*std::pow(xi_3 - 1, 3) + (41/4)*std::pow(xi_3 - 1, 4) - 9/2*std::pow(xi_3 - 1, 2)*std::pow(2*xi_2 + xi_3 - 1, 2) - 45*(xi_3 - 1)*std::pow(2*xi_2 + xi_3 - 1, 3) + (165/4)*std::pow(2*xi_2 + xi_3 - 1, 4);
  46 => (1/8)*(24*xi_1 + 12*xi_2 + 12*xi_3 - 12)*(120*xi_3 + 110*std::pow(2*xi_3 - 1, 3) + 165*std::pow(2*xi_3 - 1, 2) - 59);
  47 => (1/4)*(7*xi_2 + xi_3 - 1)*(88*xi_3 + 33*std::pow(2*xi_3 - 1, 2) - 31)*(24*xi_1 + 12*xi_2 + 12*xi_3 - 12);
  48 => (12*xi_3 - 1)*(20*xi_2*std::pow(xi_3 - 1, 2) + 8*std::pow(xi_3 - 1, 3) - 9*(xi_3 - 1)*std::pow(2*xi_2 + xi_3 - 1, 2))*(-24*xi_1 - 12*xi_2 - 12*xi_3 + 12)/(2*xi_3 - 2);
  49 => (1/16)*(24*xi_1 + 12*xi_2 + 12*xi_3 - 12)*(126*xi_2*std::pow(xi_3 - 1, 3) - 225*std::pow(-xi_3 + 1, 2)*std::pow(-2*xi_2 - xi_3 + 1, 2) + 165*(-xi_3 + 1)*std::pow(-2*xi_2 - xi_3 + 1, 3) + 68*std::pow(xi_3 - 1, 4))/(xi_3 - 1);
  50 => -(6*std::pow(xi_2 + xi_3 - 1, 3) - 30*(xi_2 + xi_3 - 1)*std::pow(2*xi_1 + xi_2 + xi_3 - 1, 2))*(88*xi_3 + 33*std::pow(2*xi_3 - 1, 2) - 31)/(4*xi_2 + 4*xi_3 - 4);
  51 => (1/2)*(12*xi_3 - 1)*(30*(-xi_2 - xi_3 + 1)*std::pow(2*xi_1 + xi_2 + xi_3 - 1, 2) + 6*std::pow(xi_2 + xi_3 - 1, 3))*(9*xi_2 + xi_3 - 1)/(-xi_2 - xi_3 + 1);
  52 => (1/8)*(30*(-xi_2 - xi_3 + 1)*std::pow(2*xi_1 + xi_2 + xi_3 - 1, 2) + 6*std::pow(xi_2 + xi_3 - 1, 3))*(140*xi_2*std::pow(xi_3 - 1, 2) + 55*(-xi_3 + 1)*std::pow(-2*xi_2 - xi_3 + 1, 2) + 51*std::pow(xi_3 - 1, 3))/((xi_3 - 1)*(xi_2 + xi_3 - 1));
  53 => (1/8)*(12*xi_3 - 1)*(-30*std::pow(xi_2 + xi_3 - 1, 2)*(8*xi_1 + 4*xi_2 + 4*xi_3 - 4) + 280*std::pow(2*xi_1 + xi_2 + xi_3 - 1, 3));
  54 => (1/8)*(-30*std::pow(xi_2 + xi_3 - 1, 2)*(8*xi_1 + 4*xi_2 + 4*xi_3 - 4) + 280*std::pow(2*xi_1 + xi_2 + xi_3 - 1, 3))*(11*xi_2 + xi_3 - 1);
  55 => (1/8)*(-630*(-xi_2 - xi_3 + 1)*std::pow(-2*xi_1 - xi_2 - xi_3 + 1, 4) + 30*std::pow(xi_2 + xi_3 - 1, 5) - 420*std::pow(xi_2 + xi_3 - 1, 3)*std::pow(-2*xi_1 - xi_2 - xi_3 + 1, 2))/(xi_2 + xi_3 - 1);
  56 => 0;
  57 => 0;
  58 => 0;
  59 => 0;
  60 => 0;
  61 => 0;
  62 => 0;
  63 => -95/4*xi_3 + (1001/8)*std::pow(2*xi_3 - 1, 5) + (715/4)*std::pow(2*xi_3 - 1, 4) + (55/4)*std::pow(2*xi_3 - 1, 3) - 55*std::pow(2*xi_3 - 1, 2) + 105/8;
  64 => (1/8)*(5*xi_2 + xi_3 - 1)*(-88*xi_3 + 1001*std::pow(2*xi_3 - 1, 4) + 1716*std::pow(2*xi_3 - 1, 3) + 726*std::pow(2*xi_3 - 1, 2) + 5);
  65 => -2*(36*xi_2*std::pow(xi_3 - 1, 2) + 17*std::pow(xi_3 - 1, 3) - 21*(xi_3 - 1)*std::pow(2*xi_2 + xi_3 - 1, 2))*(150*xi_3 + 91*std::pow(2*xi_3 - 1, 3) + 156*std::pow(2*xi_3 - 1, 2) - 67)/(8*xi_3 - 8);
  66 => (1/4)*(260*xi_3 + 91*std::pow(2*xi_3 - 1, 2) - 87)*(2*std::pow(xi_3 - 1, 3) - 21*(xi_3 - 1)*std::pow(2*xi_2 + xi_3 - 1, 2) + 21*std::pow(2*xi_2 + xi_3 - 1, 3));
  67 => (1/4)*(14*xi_3 - 1)*(88*xi_2*std::pow(xi_3 - 1, 3) + 41*std::pow(xi_3 - 1, 4) - 18*std::pow(xi_3 - 1, 2)*std::pow(2*xi_2 + xi_3 - 1, 2) - 180*(xi_3 - 1)*std::pow(2*xi_2 + xi_3 - 1, 3) + 165*std::pow(2*xi_2 + xi_3 - 1, 4));
  68 => (1/16)*(-90*xi_2*std::pow(xi_3 - 1, 5) - 70*std::pow(-xi_3 + 1, 6) - 1485*std::pow(-xi_3 + 1, 2)*std::pow(-2*xi_2 - xi_3 + 1, 4) + 1287*(-xi_3 + 1)*std::pow(-2*xi_2 - xi_3 + 1, 5) + 630*std::pow(xi_3 - 1, 4)*std::pow(-2*xi_2 - xi_3 + 1, 2) + 330*std::pow(xi_3 - 1, 3)*std::pow(-2*xi_2 - xi_3 + 1, 3))/(xi_3 - 1);
  69 => (1/32)*(24*xi_1 + 12*xi_2 + 12*xi_3 - 12)*(-88*xi_3 + 1001*std::pow(2*xi_3 - 1, 4) + 1716*std::pow(2*xi_3 - 1, 3) + 726*std::pow(2*xi_3 - 1, 2) + 5);
  70 => (1/4)*(7*xi_2 + xi_3 - 1)*(24*xi_1 + 12*xi_2 + 12*xi_3 - 12)*(150*xi_3 + 91*std::pow(2*xi_3 - 1, 3) + 156*std::pow(2*xi_3 - 1, 2) - 67);
  71 => (260*xi_3 + 91*std::pow(2*xi_3 - 1, 2) - 87)*(20*xi_2*std::pow(xi_3 - 1, 2) + 8*std::pow(xi_3 - 1, 3) - 9*(xi_3 - 1)*std::pow(2*xi_2 + xi_3 - 1, 2))*(-24*xi_1 - 12*xi_2 - 12*xi_3 + 12)/(8*xi_3 - 8);
  72 => (1/16)*(14*xi_3 - 1)*(24*xi_1 + 12*xi_2 + 12*xi_3 - 12)*(126*xi_2*std::pow(xi_3 - 1, 3) - 225*std::pow(-xi_3 + 1, 2)*std::pow(-2*xi_2 - xi_3 + 1, 2) + 165*(-xi_3 + 1)*std::pow(-2*xi_2 - xi_3 + 1, 3) + 68*std::pow(xi_3 - 1, 4))/(xi_3 - 1);
  73 => (1/32)*(24*xi_1 + 12*xi_2 + 12*xi_3 - 12)*(200*xi_2*std::pow(xi_3 - 1, 3) + 71*std::pow(xi_3 - 1, 4) + 330*std::pow(xi_3 - 1, 2)*std::pow(2*xi_2 + xi_3 - 1, 2) - 1100*(xi_3 - 1)*std::pow(2*xi_2 + xi_3 - 1, 3) + 715*std::pow(2*xi_2 + xi_3 - 1, 4));
  74 => -(6*std::pow(xi_2 + xi_3 - 1, 3) - 30*(xi_2 + xi_3 - 1)*std::pow(2*xi_1 + xi_2 + xi_3 - 1, 2))*(150*xi_3 + 91*std::pow(2*xi_3 - 1, 3) + 156*std::pow(2*xi_3 - 1, 2) - 67)/(4*xi_2 + 4*xi_3 - 4);
  75 => (1/8)*(30*(-xi_2 - xi_3 + 1)*std::pow(2*xi_1 + xi_2 + xi_3 - 1, 2) + 6*std::pow(xi_2 + xi_3 - 1, 3))*(9*xi_2 + xi_3 - 1)*(260*xi_3 + 91*std::pow(2*xi_3 - 1, 2) - 87)/(-xi_2 - xi_3 + 1);
  76 => (1/8)*(14*xi_3 - 1)*(30*(-xi_2 - xi_3 + 1)*std::pow(2*xi_1 + xi_2 + xi_3 - 1, 2) + 6*std::pow(xi_2 + xi_3 - 1, 3))*(140*xi_2*std::pow(xi_3 - 1, 2) + 55*(-xi_3 + 1)*std::pow(-2*xi_2 - xi_3 + 1, 2) + 51*std::pow(xi_3 - 1, 3))/((xi_3 - 1)*(xi_2 + xi_3 - 1));
  77 => -(6*std::pow(xi_2 + xi_3 - 1, 3) - 30*(xi_2 + xi_3 - 1)*std::pow(2*xi_1 + xi_2 + xi_3 - 1, 2))*(198*xi_2*std::pow(xi_3 - 1, 2) + 92*std::pow(xi_3 - 1, 3) - 231*(xi_3 - 1)*std::pow(2*xi_2 + xi_3 - 1, 2) + 143*std::pow(2*xi_2 + xi_3 - 1, 3))/(8*xi_2 + 8*xi_3 - 8);
  78 => (1/32)*(-30*std::pow(xi_2 + xi_3 - 1, 2)*(8*xi_1 + 4*xi_2 + 4*xi_3 - 4) + 280*std::pow(2*xi_1 + xi_2 + xi_3 - 1, 3))*(260*xi_3 + 91*std::pow(2*xi_3 - 1, 2) - 87);
  79 => (1/8)*(14*xi_3 - 1)*(-30*std::pow(xi_2 + xi_3 - 1, 2)*(8*xi_1 + 4*xi_2 + 4*xi_3 - 4) + 280*std::pow(2*xi_1 + xi_2 + xi_3 - 1, 3))*(11*xi_2 + xi_3 - 1);
  80 => -(-30*std::pow(xi_2 + xi_3 - 1, 2)*(8*xi_1 + 4*xi_2 + 4*xi_3 - 4) + 280*std::pow(2*xi_1 + xi_2 + xi_3 - 1, 3))*(108*xi_2*std::pow(xi_3 - 1, 2) + 37*std::pow(xi_3 - 1, 3) - 39*(xi_3 - 1)*std::pow(2*xi_2 + xi_3 - 1, 2))/(16*xi_3 - 16);
  81 => (1/8)*(14*xi_3 - 1)*(-630*(-xi_2 - xi_3 + 1)*std::pow(-2*xi_1 - xi_2 - xi_3 + 1, 4) + 30*std::pow(xi_2 + xi_3 - 1, 5) - 420*std::pow(xi_2 + xi_3 - 1, 3)*std::pow(-2*xi_1 - xi_2 - xi_3 + 1, 2))/(xi_2 + xi_3 - 1);
  82 => (1/8)*(13*xi_2 + xi_3 - 1)*(-630*(-xi_2 - xi_3 + 1)*std::pow(-2*xi_1 - xi_2 - xi_3 + 1, 4) + 30*std::pow(xi_2 + xi_3 - 1, 5) - 420*std::pow(xi_2 + xi_3 - 1, 3)*std::pow(-2*xi_1 - xi_2 - xi_3 + 1, 2))/(xi_2 + xi_3 - 1);
  83 => (105/16)*std::pow(xi_2 + xi_3 - 1, 4)*(8*xi_1 + 4*xi_2 + 4*xi_3 - 4) - 315/2*std::pow(xi_2 + xi_3 - 1, 2)*std::pow(2*xi_1 + xi_2 + xi_3 - 1, 3) + (693/4)*std::pow(2*xi_1 + xi_2 + xi_3 - 1, 5);
  84 => 0;
  85 => 0;
  86 => 0;
  87 => 0;
  88 => 0;
  89 => 0;
  90 => 0;
  91 => 0;
  92 => (99/4)*xi_3 + (1001/4)*std::pow(2*xi_3 - 1, 6) + (3003/8)*std::pow(2*xi_3 - 1, 5) - 715/4*std::pow(2*xi_3 - 1, 3) - 165/4*std::pow(2*xi_3 - 1, 2) - 83/8;
  93 => (1/8)*(5*xi_2 + xi_3 - 1)*(-600*xi_3 + 2184*std::pow(2*xi_3 - 1, 5) + 4095*std::pow(2*xi_3 - 1, 4) + 1820*std::pow(2*xi_3 - 1, 3) - 390*std::pow(2*xi_3 - 1, 2) + 283);
  94 => -2*(36*xi_2*std::pow(xi_3 - 1, 2) + 17*std::pow(xi_3 - 1, 3) - 21*(xi_3 - 1)*std::pow(2*xi_2 + xi_3 - 1, 2))*(156*xi_3 + 455*std::pow(2*xi_3 - 1, 4) + 910*std::pow(2*xi_3 - 1, 3) + 546*std::pow(2*xi_3 - 1, 2) - 87)/(16*xi_3 - 16);
  95 => (1/4)*(2*std::pow(xi_3 - 1, 3) - 21*(xi_3 - 1)*std::pow(2*xi_2 + xi_3 - 1, 2) + 21*std::pow(2*xi_2 + xi_3 - 1, 3))*(588*xi_3 + 280*std::pow(2*xi_3 - 1, 3) + 525*std::pow(2*xi_3 - 1, 2) - 249);
  96 => (1/4)*(90*xi_3 + 30*std::pow(2*xi_3 - 1, 2) - 29)*(88*xi_2*std::pow(xi_3 - 1, 3) + 41*std::pow(xi_3 - 1, 4) - 18*std::pow(xi_3 - 1, 2)*std::pow(2*xi_2 + xi_3 - 1, 2) - 180*(xi_3 - 1)*std::pow(2*xi_2 + xi_3 - 1, 3) + 165*std::pow(2*xi_2 + xi_3 - 1, 4));
  97 => (1/16)*(16*xi_3 - 1)*(-90*xi_2*std::pow(xi_3 - 1, 5) - 70*std::pow(-xi_3 + 1, 6) - 1485*std::pow(-xi_3 + 1, 2)*std::pow(-2*xi_2 - xi_3 + 1, 4) + 1287*(-xi_3 + 1)*std::pow(-2*xi_2 - xi_3 + 1, 5) + 630*std::pow(xi_3 - 1, 4)*std::pow(-2*xi_2 - xi_3 + 1, 2) + 330*std::pow(xi_3 - 1, 3)*std::pow(-2*xi_2 - xi_3 + 1, 3))/(xi_3 - 1);
  98 => -2*(780*xi_2*std::pow(xi_3 - 1, 6) + 365*std::pow(xi_3 - 1, 7) + 165*std::pow(xi_3 - 1, 5)*std::pow(2*xi_2 + xi_3 - 1, 2) - 3740*std::pow(xi_3 - 1, 4)*std::pow(2*xi_2 + xi_3 - 1, 3) + 2145*std::pow(xi_3 - 1, 3)*std::pow(2*xi_2 + xi_3 - 1, 4) + 6006*std::pow(xi_3 - 1, 2)*std::pow(2*xi_2 + xi_3 - 1, 5) - 5005*(xi_3 - 1)*std::pow(2*xi_2 + xi_3 - 1, 6))/(64*xi_3 - 64);
  99 => (1/32)*(24*xi_1 + 12*xi_2 + 12*xi_3 - 12)*(-600*xi_3 + 2184*std::pow(2*xi_3 - 1, 5) + 4095*std::pow(2*xi_3 - 1, 4) + 1820*std::pow(2*xi_3 - 1, 3) - 390*std::pow(2*xi_3 - 1, 2) + 283);
  100 => (1/8)*(7*xi_2 + xi_3 - 1)*(24*xi_1 + 12*xi_2 + 12*xi_3 - 12)*(156*xi_3 + 455*std::pow(2*xi_3 - 1, 4) + 910*std::pow(2*xi_3 - 1, 3) + 546*std::pow(2*xi_3 - 1, 2) - 87);
  101 => (20*xi_2*std::pow(xi_3 - 1, 2) + 8*std::pow(xi_3 - 1, 3) - 9*(xi_3 - 1)*std::pow(2*xi_2 + xi_3 - 1, 2))*(-24*xi_1 - 12*xi_2 - 12*xi_3 + 12)*(588*xi_3 + 280*std::pow(2*xi_3 - 1, 3) + 525*std::pow(2*xi_3 - 1, 2) - 249)/(8*xi_3 - 8);
  102 => (1/16)*(90*xi_3 + 30*std::pow(2*xi_3 - 1, 2) - 29)*(24*xi_1 + 12*xi_2 + 12*xi_3 - 12)*(126*xi_2*std::pow(xi_3 - 1, 3) - 225*std::pow(-xi_3 + 1, 2)*std::pow(-2*xi_2 - xi_3 + 1, 2) + 165*(-xi_3 + 1)*std::pow(-2*xi_2 - xi_3 + 1, 3) + 68*std::pow(xi_3 - 1, 4))/(xi_3 - 1);
  103 => (1/32)*(16*xi_3 - 1)*(24*xi_1 + 12*xi_2 + 12*xi_3 - 12)*(200*xi_2*std::pow(xi_3 - 1, 3) + 71*std::pow(xi_3 - 1, 4) + 330*std::pow(xi_3 - 1, 2)*std::pow(2*xi_2 + xi_3 - 1, 2) - 1100*(xi_3 - 1)*std::pow(2*xi_2 + xi_3 - 1, 3) + 715*std::pow(2*xi_2 + xi_3 - 1, 4));
  104 => (-24*xi_1 - 12*xi_2 - 12*xi_3 + 12)*(770*xi_2*std::pow(xi_3 - 1, 5) + 386*std::pow(xi_3 - 1, 6) - 990*std::pow(xi_3 - 1, 4)*std::pow(2*xi_2 + xi_3 - 1, 2) - 1430*std::pow(xi_3 - 1, 3)*std::pow(2*xi_2 + xi_3 - 1, 3) + 5005*std::pow(xi_3 - 1, 2)*std::pow(2*xi_2 + xi_3 - 1, 4) - 3003*(xi_3 - 1)*std::pow(2*xi_2 + xi_3 - 1, 5))/(64*xi_3 - 64);
  105 => -(6*std::pow(xi_2 + xi_3 - 1, 3) - 30*(xi_2 + xi_3 - 1)*std::pow(2*xi_1 + xi_2 + xi_3 - 1, 2))*(156*xi_3 + 455*std::pow(2*xi_3 - 1, 4) + 910*std::pow(2*xi_3 - 1, 3) + 546*std::pow(2*xi_3 - 1, 2) - 87)/(8*xi_2 + 8*xi_3 - 8);
  106 => (1/8)*(30*(-xi_2 - xi_3 + 1)*std::pow(2*xi_1 + xi_2 + xi_3 - 1, 2) + 6*std::pow(xi_2 + xi_3 - 1, 3))*(9*xi_2 + xi_3 - 1)*(588*xi_3 + 280*std::pow(2*xi_3 - 1, 3) + 525*std::pow(2*xi_3 - 1, 2) - 249)/(-xi_2 - xi_3 + 1);
  107 => (1/8)*(30*(-xi_2 - xi_3 + 1)*std::pow(2*xi_1 + xi_2 + xi_3 - 1, 2) + 6*std::pow(xi_2 + xi_3 - 1, 3))*(90*xi_3 + 30*std::pow(2*xi_3 - 1, 2) - 29)*(140*xi_2*std::pow(xi_3 - 1, 2) + 55*(-xi_3 + 1)*std::pow(-2*xi_2 - xi_3 + 1, 2) + 51*std::pow(xi_3 - 1, 3))/((xi_3 - 1)*(xi_2 + xi_3 - 1));
  108 => -(16*xi_3 - 1)*(6*std::pow(xi_2 + xi_3 - 1, 3) - 30*(xi_2 + xi_3 - 1)*std::pow(2*xi_1 + xi_2 + xi_3 - 1, 2))*(198*xi_2*std::pow(xi_3 - 1, 2) + 92*std::pow(xi_3 - 1, 3) - 231*(xi_3 - 1)*std::pow(2*xi_2 + xi_3 - 1, 2) + 143*std::pow(2*xi_2 + xi_3 - 1, 3))/(8*xi_2 + 8*xi_3 - 8);
  109 => (6*std::pow(xi_2 + xi_3 - 1, 3) - 30*(xi_2 + xi_3 - 1)*std::pow(2*xi_1 + xi_2 + xi_3 - 1, 2))*(168*xi_2*std::pow(xi_3 - 1, 3) + 127*std::pow(xi_3 - 1, 4) - 1326*std::pow(xi_3 - 1, 2)*std::pow(2*xi_2 + xi_3 - 1, 2) + 2548*(xi_3 - 1)*std::pow(2*xi_2 + xi_3 - 1, 3) - 1365*std::pow(2*xi_2 + xi_3 - 1, 4))/(32*xi_2 + 32*xi_3 - 32);
  110 => (1/32)*(-30*std::pow(xi_2 + xi_3 - 1, 2)*(8*xi_1 + 4*xi_2 + 4*xi_3 - 4) + 280*std::pow(2*xi_1 + xi_2 + xi_3 - 1, 3))*(588*xi_3 + 280*std::pow(2*xi_3 - 1, 3) + 525*std::pow(2*xi_3 - 1, 2) - 249);
  111 => (1/8)*(-30*std::pow(xi_2 + xi_3 - 1, 2)*(8*xi_1 + 4*xi_2 + 4*xi_3 - 4) + 280*std::pow(2*xi_1 + xi_2 + xi_3 - 1, 3))*(11*xi_2 + xi_3 - 1)*(90*xi_3 + 30*std::pow(2*xi_3 - 1, 2) - 29);
  112 => -(16*xi_3 - 1)*(-30*std::pow(xi_2 + xi_3 - 1, 2)*(8*xi_1 + 4*xi_2 + 4*xi_3 - 4) + 280*std::pow(2*xi_1 + xi_2 + xi_3 - 1, 3))*(108*xi_2*std::pow(xi_3 - 1, 2) + 37*std::pow(xi_3 - 1, 3) - 39*(xi_3 - 1)*std::pow(2*xi_2 + xi_3 - 1, 2))/(16*xi_3 - 16);
  113 => (1/64)*(-30*std::pow(xi_2 + xi_3 - 1, 2)*(8*xi_1 + 4*xi_2 + 4*xi_3 - 4) + 280*std::pow(2*xi_1 + xi_2 + xi_3 - 1, 3))*(858*xi_2*std::pow(xi_3 - 1, 3) - 819*std::pow(-xi_3 + 1, 2)*std::pow(-2*xi_2 - xi_3 + 1, 2) + 455*(-xi_3 + 1)*std::pow(-2*xi_2 - xi_3 + 1, 3) + 372*std::pow(xi_3 - 1, 4))/(xi_3 - 1);
  114 => (1/8)*(90*xi_3 + 30*std::pow(2*xi_3 - 1, 2) - 29)*(-630*(-xi_2 - xi_3 + 1)*std::pow(-2*xi_1 - xi_2 - xi_3 + 1, 4) + 30*std::pow(xi_2 + xi_3 - 1, 5) - 420*std::pow(xi_2 + xi_3 - 1, 3)*std::pow(-2*xi_1 - xi_2 - xi_3 + 1, 2))/(xi_2 + xi_3 - 1);
  115 => (1/8)*(16*xi_3 - 1)*(13*xi_2 + xi_3 - 1)*(-630*(-xi_2 - xi_3 + 1)*std::pow(-2*xi_1 - xi_2 - xi_3 + 1, 4) + 30*std::pow(xi_2 + xi_3 - 1, 5) - 420*std::pow(xi_2 + xi_3 - 1, 3)*std::pow(-2*xi_1 - xi_2 - xi_3 + 1, 2))/(xi_2 + xi_3 - 1);
  116 => -1/32*(308*xi_2*std::pow(xi_3 - 1, 2) + 101*std::pow(xi_3 - 1, 3) - 105*(xi_3 - 1)*std::pow(2*xi_2 + xi_3 - 1, 2))*(30*std::pow(xi_2 + xi_3 - 1, 5) - 420*std::pow(xi_2 + xi_3 - 1, 3)*std::pow(2*xi_1 + xi_2 + xi_3 - 1, 2) + 630*(xi_2 + xi_3 - 1)*std::pow(2*xi_1 + xi_2 + xi_3 - 1, 4))/((xi_3 - 1)*(xi_2 + xi_3 - 1));
  117 => (1/16)*(16*xi_3 - 1)*(105*std::pow(xi_2 + xi_3 - 1, 4)*(8*xi_1 + 4*xi_2 + 4*xi_3 - 4) - 2520*std::pow(xi_2 + xi_3 - 1, 2)*std::pow(2*xi_1 + xi_2 + xi_3 - 1, 3) + 2772*std::pow(2*xi_1 + xi_2 + xi_3 - 1, 5));
  118 => (1/16)*(15*xi_2 + xi_3 - 1)*(105*std::pow(xi_2 + xi_3 - 1, 4)*(8*xi_1 + 4*xi_2 + 4*xi_3 - 4) - 2520*std::pow(xi_2 + xi_3 - 1, 2)*std::pow(2*xi_1 + xi_2 + xi_3 - 1, 3) + 2772*std::pow(2*xi_1 + xi_2 + xi_3 - 1, 5));
  119 => -(70*std::pow(xi_2 + xi_3 - 1, 7) - 1890*std::pow(xi_2 + xi_3 - 1, 5)*std::pow(2*xi_1 + xi_2 + xi_3 - 1, 2) + 6930*std::pow(xi_2 + xi_3 - 1, 3)*std::pow(2*xi_1 + xi_2 + xi_3 - 1, 4) - 6006*(xi_2 + xi_3 - 1)*std::pow(2*xi_1 + xi_2 + xi_3 - 1, 6))/(16*xi_2 + 16*xi_3 - 16);
  120 => 0;
  121 => 0;
  122 => 0;
  123 => 0;
  124 => 0;
  125 => 0;
  126 => 0;
  127 => 0;
  128 => 0;
  129 => (63/2)*xi_3 + (1989/4)*std::pow(2*xi_3 - 1, 7) + (1547/2)*std::pow(2*xi_3 - 1, 6) - 273/4*std::pow(2*xi_3 - 1, 5) - 4095/8*std::pow(2*xi_3 - 1, 4) - 455/4*std::pow(2*xi_3 - 1, 3) + (273/4)*std::pow(2*xi_3 - 1, 2) - 133/8;
  130 => (1/8)*(5*xi_2 + xi_3 - 1)*(-156*xi_3 + 4641*std::pow(2*xi_3 - 1, 6) + 9282*std::pow(2*xi_3 - 1, 5) + 4095*std::pow(2*xi_3 - 1, 4) - 1820*std::pow(2*xi_3 - 1, 3) - 1365*std::pow(2*xi_3 - 1, 2) + 107);
  131 => -2*(36*xi_2*std::pow(xi_3 - 1, 2) + 17*std::pow(xi_3 - 1, 3) - 21*(xi_3 - 1)*std::pow(2*xi_2 + xi_3 - 1, 2))*(-210*xi_3 + 1071*std::pow(2*xi_3 - 1, 5) + 2380*std::pow(2*xi_3 - 1, 4) + 1610*std::pow(2*xi_3 - 1, 3) + 210*std::pow(2*xi_3 - 1, 2) + 87)/(16*xi_3 - 16);
  132 => (1/4)*(2*std::pow(xi_3 - 1, 3) - 21*(xi_3 - 1)*std::pow(2*xi_2 + xi_3 - 1, 2) + 21*std::pow(2*xi_2 + xi_3 - 1, 3))*(600*xi_3 + 765*std::pow(2*xi_3 - 1, 4) + 1700*std::pow(2*xi_3 - 1, 3) + 1230*std::pow(2*xi_3 - 1, 2) - 291);
  133 => (1/4)*(252*xi_3 + 102*std::pow(2*xi_3 - 1, 3) + 204*std::pow(2*xi_3 - 1, 2) - 103)*(88*xi_2*std::pow(xi_3 - 1, 3) + 41*std::pow(xi_3 - 1, 4) - 18*std::pow(xi_3 - 1, 2)*std::pow(2*xi_2 + xi_3 - 1, 2) - 180*(xi_3 - 1)*std::pow(2*xi_2 + xi_3 - 1, 3) + 165*std::pow(2*xi_2 + xi_3 - 1, 4));
  134 => (1/64)*(476*xi_3 + 153*std::pow(2*xi_3 - 1, 2) - 149)*(-90*xi_2*std::pow(xi_3 - 1, 5) - 70*std::pow(-xi_3 + 1, 6) - 1485*std::pow(-xi_3 + 1, 2)*std::pow(-2*xi_2 - xi_3 + 1, 4) + 1287*(-xi_3 + 1)*std::pow(-2*xi_2 - xi_3 + 1, 5) + 630*std::pow(xi_3 - 1, 4)*std::pow(-2*xi_2 - xi_3 + 1, 2) + 330*std::pow(xi_3 - 1, 3)*std::pow(-2*xi_2 - xi_3 + 1, 3))/(xi_3 - 1);
  135 => -2*(18*xi_3 - 1)*(780*xi_2*std::pow(xi_3 - 1, 6) + 365*std::pow(xi_3 - 1, 7) + 165*std::pow(xi_3 - 1, 5)*std::pow(2*xi_2 + xi_3 - 1, 2) - 3740*std::pow(xi_3 - 1, 4)*std::pow(2*xi_2 + xi_3 - 1, 3) + 2145*std::pow(xi_3 - 1, 3)*std::pow(2*xi_2 + xi_3 - 1, 4) + 6006*std::pow(xi_3 - 1, 2)*std::pow(2*xi_2 + xi_3 - 1, 5) - 5005*(xi_3 - 1)*std::pow(2*xi_2 + xi_3 - 1, 6))/(64*xi_3 - 64);
  136 => (1/16)*(154*xi_2*std::pow(xi_3 - 1, 7) - 924*std::pow(-xi_3 + 1, 6)*std::pow(-2*xi_2 - xi_3 + 1, 2) - 6006*std::pow(-xi_3 + 1, 2)*std::pow(-2*xi_2 - xi_3 + 1, 6) + 4862*(-xi_3 + 1)*std::pow(-2*xi_2 - xi_3 + 1, 7) + 98*std::pow(xi_3 - 1, 8) + 5005*std::pow(xi_3 - 1, 4)*std::pow(-2*xi_2 - xi_3 + 1, 4) + 3003*std::pow(xi_3 - 1, 3)*std::pow(-2*xi_2 - xi_3 + 1, 5))/(xi_3 - 1);
  137 => (1/32)*(24*xi_1 + 12*xi_2 + 12*xi_3 - 12)*(-156*xi_3 + 4641*std::pow(2*xi_3 - 1, 6) + 9282*std::pow(2*xi_3 - 1, 5) + 4095*std::pow(2*xi_3 - 1, 4) - 1820*std::pow(2*xi_3 - 1, 3) - 1365*std::pow(2*xi_3 - 1, 2) + 107);
  138 => (1/8)*(7*xi_2 + xi_3 - 1)*(24*xi_1 + 12*xi_2 + 12*xi_3 - 12)*(-210*xi_3 + 1071*std::pow(2*xi_3 - 1, 5) + 2380*std::pow(2*xi_3 - 1, 4) + 1610*std::pow(2*xi_3 - 1, 3) + 210*std::pow(2*xi_3 - 1, 2) + 87);
  139 => (20*xi_2*std::pow(xi_3 - 1, 2) + 8*std::pow(xi_3 - 1, 3) - 9*(xi_3 - 1)*std::pow(2*xi_2 + xi_3 - 1, 2))*(-24*xi_1 - 12*xi_2 - 12*xi_3 + 12)*(600*xi_3 + 765*std::pow(2*xi_3 - 1, 4) + 1700*std::pow(2*xi_3 - 1, 3) + 1230*std::pow(2*xi_3 - 1, 2) - 291)/(8*xi_3 - 8);
  140 => (1/16)*(24*xi_1 + 12*xi_2 + 12*xi_3 - 12)*(252*xi_3 + 102*std::pow(2*xi_3 - 1, 3) + 204*std::pow(2*xi_3 - 1, 2) - 103)*(126*xi_2*std::pow(xi_3 - 1, 3) - 225*std::pow(-xi_3 + 1, 2)*std::pow(-2*xi_2 - xi_3 + 1, 2) + 165*(-xi_3 + 1)*std::pow(-2*xi_2 - xi_3 + 1, 3) + 68*std::pow(xi_3 - 1, 4))/(xi_3 - 1);
  141 => (1/128)*(476*xi_3 + 153*std::pow(2*xi_3 - 1, 2) - 149)*(24*xi_1 + 12*xi_2 + 12*xi_3 - 12)*(200*xi_2*std::pow(xi_3 - 1, 3) + 71*std::pow(xi_3 - 1, 4) + 330*std::pow(xi_3 - 1, 2)*std::pow(2*xi_2 + xi_3 - 1, 2) - 1100*(xi_3 - 1)*std::pow(2*xi_2 + xi_3 - 1, 3) + 715*std::pow(2*xi_2 + xi_3 - 1, 4));
  142 => (18*xi_3 - 1)*(-24*xi_1 - 12*xi_2 - 12*xi_3 + 12)*(770*xi_2*std::pow(xi_3 - 1, 5) + 386*std::pow(xi_3 - 1, 6) - 990*std::pow(xi_3 - 1, 4)*std::pow(2*xi_2 + xi_3 - 1, 2) - 1430*std::pow(xi_3 - 1, 3)*std::pow(2*xi_2 + xi_3 - 1, 3) + 5005*std::pow(xi_3 - 1, 2)*std::pow(2*xi_2 + xi_3 - 1, 4) - 3003*(xi_3 - 1)*std::pow(2*xi_2 + xi_3 - 1, 5))/(64*xi_3 - 64);
  143 => (1/32)*(-24*xi_1 - 12*xi_2 - 12*xi_3 + 12)*(96*xi_2*std::pow(xi_3 - 1, 5) + 23*std::pow(xi_3 - 1, 6) + 780*std::pow(xi_3 - 1, 4)*std::pow(2*xi_2 + xi_3 - 1, 2) - 1820*std::pow(xi_3 - 1, 3)*std::pow(2*xi_2 + xi_3 - 1, 3) - 1365*std::pow(xi_3 - 1, 2)*std::pow(2*xi_2 + xi_3 - 1, 4) + 5460*(xi_3 - 1)*std::pow(2*xi_2 + xi_3 - 1, 5) - 3094*std::pow(2*xi_2 + xi_3 - 1, 6));
  144 => -(6*std::pow(xi_2 + xi_3 - 1, 3) - 30*(xi_2 + xi_3 - 1)*std::pow(2*xi_1 + xi_2 + xi_3 - 1, 2))*(-210*xi_3 + 1071*std::pow(2*xi_3 - 1, 5) + 2380*std::pow(2*xi_3 - 1, 4) + 1610*std::pow(2*xi_3 - 1, 3) + 210*std::pow(2*xi_3 - 1, 2) + 87)/(8*xi_2 + 8*xi_3 - 8);
  145 => (1/8)*(30*(-xi_2 - xi_3 + 1)*std::pow(2*xi_1 + xi_2 + xi_3 - 1, 2) + 6*std::pow(xi_2 + xi_3 - 1, 3))*(9*xi_2 + xi_3 - 1)*(600*xi_3 + 765*std::pow(2*xi_3 - 1, 4) + 1700*std::pow(2*xi_3 - 1, 3) + 1230*std::pow(2*xi_3 - 1, 2) - 291)/(-xi_2 - xi_3 + 1);
  146 => (1/8)*(30*(-xi_2 - xi_3 + 1)*std::pow(2*xi_1 + xi_2 + xi_3 - 1, 2) + 6*std::pow(xi_2 + xi_3 - 1, 3))*(140*xi_2*std::pow(xi_3 - 1, 2) + 55*(-xi_3 + 1)*std::pow(-2*xi_2 - xi_3 + 1, 2) + 51*std::pow(xi_3 - 1, 3))*(252*xi_3 + 102*std::pow(2*xi_3 - 1, 3) + 204*std::pow(2*xi_3 - 1, 2) - 103)/((xi_3 - 1)*(xi_2 + xi_3 - 1));
  147 => -(6*std::pow(xi_2 + xi_3 - 1, 3) - 30*(xi_2 + xi_3 - 1)*std::pow(2*xi_1 + xi_2 + xi_3 - 1, 2))*(476*xi_3 + 153*std::pow(2*xi_3 - 1, 2) - 149)*(198*xi_2*std::pow(xi_3 - 1, 2) + 92*std::pow(xi_3 - 1, 3) - 231*(xi_3 - 1)*std::pow(2*xi_2 + xi_3 - 1, 2) + 143*std::pow(2*xi_2 + xi_3 - 1, 3))/(32*xi_2 + 32*xi_3 - 32);
  148 => (1/32)*(18*xi_3 - 1)*(30*(-xi_2 - xi_3 + 1)*std::pow(2*xi_1 + xi_2 + xi_3 - 1, 2) + 6*std::pow(xi_2 + xi_3 - 1, 3))*(-168*xi_2*std::pow(xi_3 - 1, 3) - 127*std::pow(xi_3 - 1, 4) + 1326*std::pow(xi_3 - 1, 2)*std::pow(2*xi_2 + xi_3 - 1, 2) - 2548*(xi_3 - 1)*std::pow(2*xi_2 + xi_3 - 1, 3) + 1365*std::pow(2*xi_2 + xi_3 - 1, 4))/(-xi_2 - xi_3 + 1);
  149 => (1/16)*(30*(-xi_2 - xi_3 + 1)*std::pow(2*xi_1 + xi_2 + xi_3 - 1, 2) + 6*std::pow(xi_2 + xi_3 - 1, 3))*(390*xi_2*std::pow(xi_3 - 1, 5) + 1820*std::pow(-xi_3 + 1, 3)*std::pow(2*xi_2 + xi_3 - 1, 3) + 1547*(-xi_3 + 1)*std::pow(2*xi_2 + xi_3 - 1, 5) + 174*std::pow(xi_3 - 1, 6) + 3185*std::pow(xi_3 - 1, 2)*std::pow(2*xi_2 + xi_3 - 1, 4))/((xi_3 - 1)*(xi_2 + xi_3 - 1));
  150 => (1/32)*(-30*std::pow(xi_2 + xi_3 - 1, 2)*(8*xi_1 + 4*xi_2 + 4*xi_3 - 4) + 280*std::pow(2*xi_1 + xi_2 + xi_3 - 1, 3))*(600*xi_3 + 765*std::pow(2*xi_3 - 1, 4) + 1700*std::pow(2*xi_3 - 1, 3) + 1230*std::pow(2*xi_3 - 1, 2) - 291);
  151 => (1/8)*(-30*std::pow(xi_2 + xi_3 - 1, 2)*(8*xi_1 + 4*xi_2 + 4*xi_3 - 4) + 280*std::pow(2*xi_1 + xi_2 + xi_3 - 1, 3))*(11*xi_2 + xi_3 - 1)*(252*xi_3 + 102*std::pow(2*xi_3 - 1, 3) + 204*std::pow(2*xi_3 - 1, 2) - 103);
  152 => -(-30*std::pow(xi_2 + xi_3 - 1, 2)*(8*xi_1 + 4*xi_2 + 4*xi_3 - 4) + 280*std::pow(2*xi_1 + xi_2 + xi_3 - 1, 3))*(476*xi_3 + 153*std::pow(2*xi_3 - 1, 2) - 149)*(108*xi_2*std::pow(xi_3 - 1, 2) + 37*std::pow(xi_3 - 1, 3) - 39*(xi_3 - 1)*std::pow(2*xi_2 + xi_3 - 1, 2))/(64*xi_3 - 64);
  153 => (1/64)*(18*xi_3 - 1)*(-30*std::pow(xi_2 + xi_3 - 1, 2)*(8*xi_1 + 4*xi_2 + 4*xi_3 - 4) + 280*std::pow(2*xi_1 + xi_2 + xi_3 - 1, 3))*(858*xi_2*std::pow(xi_3 - 1, 3) - 819*std::pow(-xi_3 + 1, 2)*std::pow(-2*xi_2 - xi_3 + 1, 2) + 455*(-xi_3 + 1)*std::pow(-2*xi_2 - xi_3 + 1, 3) + 372*std::pow(xi_3 - 1, 4))/(xi_3 - 1);
  154 => (1/32)*(-30*std::pow(xi_2 + xi_3 - 1, 2)*(8*xi_1 + 4*xi_2 + 4*xi_3 - 4) + 280*std::pow(2*xi_1 + xi_2 + xi_3 - 1, 3))*(-336*xi_2*std::pow(xi_3 - 1, 3) - 171*std::pow(xi_3 - 1, 4) + 840*std::pow(xi_3 - 1, 2)*std::pow(2*xi_2 + xi_3 - 1, 2) - 1260*(xi_3 - 1)*std::pow(2*xi_2 + xi_3 - 1, 3) + 595*std::pow(2*xi_2 + xi_3 - 1, 4));
  155 => (1/8)*(-630*(-xi_2 - xi_3 + 1)*std::pow(-2*xi_1 - xi_2 - xi_3 + 1, 4) + 30*std::pow(xi_2 + xi_3 - 1, 5) - 420*std::pow(xi_2 + xi_3 - 1, 3)*std::pow(-2*xi_1 - xi_2 - xi_3 + 1, 2))*(252*xi_3 + 102*std::pow(2*xi_3 - 1, 3) + 204*std::pow(2*xi_3 - 1, 2) - 103)/(xi_2 + xi_3 - 1);
  156 => (1/32)*(13*xi_2 + xi_3 - 1)*(476*xi_3 + 153*std::pow(2*xi_3 - 1, 2) - 149)*(-630*(-xi_2 - xi_3 + 1)*std::pow(-2*xi_1 - xi_2 - xi_3 + 1, 4) + 30*std::pow(xi_2 + xi_3 - 1, 5) - 420*std::pow(xi_2 + xi_3 - 1, 3)*std::pow(-2*xi_1 - xi_2 - xi_3 + 1, 2))/(xi_2 + xi_3 - 1);
  157 => -1/32*(18*xi_3 - 1)*(308*xi_2*std::pow(xi_3 - 1, 2) + 101*std::pow(xi_3 - 1, 3) - 105*(xi_3 - 1)*std::pow(2*xi_2 + xi_3 - 1, 2))*(30*std::pow(xi_2 + xi_3 - 1, 5) - 420*std::pow(xi_2 + xi_3 - 1, 3)*std::pow(2*xi_1 + xi_2 + xi_3 - 1, 2) + 630*(xi_2 + xi_3 - 1)*std::pow(2*xi_1 + xi_2 + xi_3 - 1, 4))/((xi_3 - 1)*(xi_2 + xi_3 - 1));
  158 => (1/8)*(-630*(-xi_2 - xi_3 + 1)*std::pow(-2*xi_1 - xi_2 - xi_3 + 1, 4) + 30*std::pow(xi_2 + xi_3 - 1, 5) - 420*std::pow(xi_2 + xi_3 - 1, 3)*std::pow(-2*xi_1 - xi_2 - xi_3 + 1, 2))*(195*xi_2*std::pow(xi_3 - 1, 2) + 81*std::pow(xi_3 - 1, 3) - 165*(xi_3 - 1)*std::pow(-2*xi_2 - xi_3 + 1, 2) - 85*std::pow(-2*xi_2 - xi_3 + 1, 3))/(xi_2 + xi_3 - 1);
  159 => (1/64)*(476*xi_3 + 153*std::pow(2*xi_3 - 1, 2) - 149)*(105*std::pow(xi_2 + xi_3 - 1, 4)*(8*xi_1 + 4*xi_2 + 4*xi_3 - 4) - 2520*std::pow(xi_2 + xi_3 - 1, 2)*std::pow(2*xi_1 + xi_2 + xi_3 - 1, 3) + 2772*std::pow(2*xi_1 + xi_2 + xi_3 - 1, 5));
  160 => (1/16)*(18*xi_3 - 1)*(15*xi_2 + xi_3 - 1)*(105*std::pow(xi_2 + xi_3 - 1, 4)*(8*xi_1 + 4*xi_2 + 4*xi_3 - 4) - 2520*std::pow(xi_2 + xi_3 - 1, 2)*std::pow(2*xi_1 + xi_2 + xi_3 - 1, 3) + 2772*std::pow(2*xi_1 + xi_2 + xi_3 - 1, 5));
  161 => (104*xi_2*std::pow(xi_3 - 1, 2) + 33*std::pow(xi_3 - 1, 3) - 34*(xi_3 - 1)*std::pow(2*xi_2 + xi_3 - 1, 2))*(-105*std::pow(xi_2 + xi_3 - 1, 4)*(8*xi_1 + 4*xi_2 + 4*xi_3 - 4) + 2520*std::pow(xi_2 + xi_3 - 1, 2)*std::pow(2*xi_1 + xi_2 + xi_3 - 1, 3) - 2772*std::pow(2*xi_1 + xi_2 + xi_3 - 1, 5))/(16*xi_3 - 16);
  162 => -(18*xi_3 - 1)*(70*std::pow(xi_2 + xi_3 - 1, 7) - 1890*std::pow(xi_2 + xi_3 - 1, 5)*std::pow(2*xi_1 + xi_2 + xi_3 - 1, 2) + 6930*std::pow(xi_2 + xi_3 - 1, 3)*std::pow(2*xi_1 + xi_2 + xi_3 - 1, 4) - 6006*(xi_2 + xi_3 - 1)*std::pow(2*xi_1 + xi_2 + xi_3 - 1, 6))/(16*xi_2 + 16*xi_3 - 16);
  163 => -(17*xi_2 + xi_3 - 1)*(70*std::pow(xi_2 + xi_3 - 1, 7) - 1890*std::pow(xi_2 + xi_3 - 1, 5)*std::pow(2*xi_1 + xi_2 + xi_3 - 1, 2) + 6930*std::pow(xi_2 + xi_3 - 1, 3)*std::pow(2*xi_1 + xi_2 + xi_3 - 1, 4) - 6006*(xi_2 + xi_3 - 1)*std::pow(2*xi_1 + xi_2 + xi_3 - 1, 6))/(16*xi_2 + 16*xi_3 - 16);
  164 => -315/32*std::pow(xi_2 + xi_3 - 1, 6)*(8*xi_1 + 4*xi_2 + 4*xi_3 - 4) + (3465/8)*std::pow(xi_2 + xi_3 - 1, 4)*std::pow(2*xi_1 + xi_2 + xi_3 - 1, 3) - 9009/8*std::pow(xi_2 + xi_3 - 1, 2)*std::pow(2*xi_1 + xi_2 + xi_3 - 1, 5) + (6435/8)*std::pow(2*xi_1 + xi_2 + xi_3 - 1, 7);
  165 => 0;
  166 => 0;
  167 => 0;
  168 => 0;
  169 => 0;
  170 => 0;
  171 => 0;
  172 => 0;
  173 => 0;
  174 => 0;
  175 => -91/4*xi_3 + (62985/64)*std::pow(2*xi_3 - 1, 8) + (12597/8)*std::pow(2*xi_3 - 1, 7) - 4641/16*std::pow(2*xi_3 - 1, 6) - 10829/8*std::pow(2*xi_3 - 1, 5) - 8645/32*std::pow(2*xi_3 - 1, 4) + (2275/8)*std::pow(2*xi_3 - 1, 3) + (1183/16)*std::pow(2*xi_3 - 1, 2) + 609/64;
  176 => (1/8)*(5*xi_2 + xi_3 - 1)*(616*xi_3 + 9690*std::pow(2*xi_3 - 1, 7) + 20349*std::pow(2*xi_3 - 1, 6) + 8568*std::pow(2*xi_3 - 1, 5) - 6545*std::pow(2*xi_3 - 1, 4) - 4830*std::pow(2*xi_3 - 1, 3) - 105*std::pow(2*xi_3 - 1, 2) - 287);
  177 => -2*(36*xi_2*std::pow(xi_3 - 1, 2) + 17*std::pow(xi_3 - 1, 3) - 21*(xi_3 - 1)*std::pow(2*xi_2 + xi_3 - 1, 2))*(-600*xi_3 + 4845*std::pow(2*xi_3 - 1, 6) + 11628*std::pow(2*xi_3 - 1, 5) + 8415*std::pow(2*xi_3 - 1, 4) + 680*std::pow(2*xi_3 - 1, 3) - 1245*std::pow(2*xi_3 - 1, 2) + 301)/(32*xi_3 - 32);
  178 => (1/4)*(2*std::pow(xi_3 - 1, 3) - 21*(xi_3 - 1)*std::pow(2*xi_2 + xi_3 - 1, 2) + 21*std::pow(2*xi_2 + xi_3 - 1, 3))*(-20*xi_3 + 1938*std::pow(2*xi_3 - 1, 5) + 4845*std::pow(2*xi_3 - 1, 4) + 4080*std::pow(2*xi_3 - 1, 3) + 1190*std::pow(2*xi_3 - 1, 2) - 21);
  179 => (1/64)*(5848*xi_3 + 4845*std::pow(2*xi_3 - 1, 4) + 11628*std::pow(2*xi_3 - 1, 3) + 9486*std::pow(2*xi_3 - 1, 2) - 2687)*(88*xi_2*std::pow(xi_3 - 1, 3) + 41*std::pow(xi_3 - 1, 4) - 18*std::pow(xi_3 - 1, 2)*std::pow(2*xi_2 + xi_3 - 1, 2) - 180*(xi_3 - 1)*std::pow(2*xi_2 + xi_3 - 1, 3) + 165*std::pow(2*xi_2 + xi_3 - 1, 4));
  180 => (1/64)*(1584*xi_3 + 570*std::pow(2*xi_3 - 1, 3) + 1197*std::pow(2*xi_3 - 1, 2) - 631)*(-90*xi_2*std::pow(xi_3 - 1, 5) - 70*std::pow(-xi_3 + 1, 6) - 1485*std::pow(-xi_3 + 1, 2)*std::pow(-2*xi_2 - xi_3 + 1, 4) + 1287*(-xi_3 + 1)*std::pow(-2*xi_2 - xi_3 + 1, 5) + 630*std::pow(xi_3 - 1, 4)*std::pow(-2*xi_2 - xi_3 + 1, 2) + 330*std::pow(xi_3 - 1, 3)*std::pow(-2*xi_2 - xi_3 + 1, 3))/(xi_3 - 1);
  181 => -2*(304*xi_3 + 95*std::pow(2*xi_3 - 1, 2) - 93)*(780*xi_2*std::pow(xi_3 - 1, 6) + 365*std::pow(xi_3 - 1, 7) + 165*std::pow(xi_3 - 1, 5)*std::pow(2*xi_2 + xi_3 - 1, 2) - 3740*std::pow(xi_3 - 1, 4)*std::pow(2*xi_2 + xi_3 - 1, 3) + 2145*std::pow(xi_3 - 1, 3)*std::pow(2*xi_2 + xi_3 - 1, 4) + 6006*std::pow(xi_3 - 1, 2)*std::pow(2*xi_2 + xi_3 - 1, 5) - 5005*(xi_3 - 1)*std::pow(2*xi_2 + xi_3 - 1, 6))/(128*xi_3 - 128);
  182 => (1/16)*(20*xi_3 - 1)*(154*xi_2*std::pow(xi_3 - 1, 7) - 924*std::pow(-xi_3 + 1, 6)*std::pow(-2*xi_2 - xi_3 + 1, 2) - 6006*std::pow(-xi_3 + 1, 2)*std::pow(-2*xi_2 - xi_3 + 1, 6) + 4862*(-xi_3 + 1)*std::pow(-2*xi_2 - xi_3 + 1, 7) + 98*std::pow(xi_3 - 1, 8) + 5005*std::pow(xi_3 - 1, 4)*std::pow(-2*xi_2 - xi_3 + 1, 4) + 3003*std::pow(xi_3 - 1, 3)*std::pow(-2*xi_2 - xi_3 + 1, 5))/(xi_3 - 1);
  183 => (105/4)*xi_2*std::pow(xi_3 - 1, 7) + (1729/8)*std::pow(-xi_3 + 1, 5)*std::pow(2*xi_2 + xi_3 - 1, 3) - 7735/16*std::pow(-xi_3 + 1, 2)*std::pow(2*xi_2 + xi_3 - 1, 6) + (5967/8)*(-xi_3 + 1)*std::pow(2*xi_2 + xi_3 - 1, 7) + (791/64)*std::pow(xi_3 - 1, 8) + (273/16)*std::pow(xi_3 - 1, 6)*std::pow(2*xi_2 + xi_3 - 1, 2) + (1365/32)*std::pow(xi_3 - 1, 4)*std::pow(2*xi_2 + xi_3 - 1, 4) + (6279/8)*std::pow(xi_3 - 1, 3)*std::pow(2*xi_2 + xi_3 - 1, 5) + (37791/64)*std::pow(2*xi_2 + xi_3 - 1, 8);
  184 => (1/32)*(24*xi_1 + 12*xi_2 + 12*xi_3 - 12)*(616*xi_3 + 9690*std::pow(2*xi_3 - 1, 7) + 20349*std::pow(2*xi_3 - 1, 6) + 8568*std::pow(2*xi_3 - 1, 5) - 6545*std::pow(2*xi_3 - 1, 4) - 4830*std::pow(2*xi_3 - 1, 3) - 105*std::pow(2*xi_3 - 1, 2) - 287);
  185 => (1/16)*(7*xi_2 + xi_3 - 1)*(24*xi_1 + 12*xi_2 + 12*xi_3 - 12)*(-600*xi_3 + 4845*std::pow(2*xi_3 - 1, 6) + 11628*std::pow(2*xi_3 - 1, 5) + 8415*std::pow(2*xi_3 - 1, 4) + 680*std::pow(2*xi_3 - 1, 3) - 1245*std::pow(2*xi_3 - 1, 2) + 301);
  186 => (20*xi_2*std::pow(xi_3 - 1, 2) + 8*std::pow(xi_3 - 1, 3) - 9*(xi_3 - 1)*std::pow(2*xi_2 + xi_3 - 1, 2))*(-24*xi_1 - 12*xi_2 - 12*xi_3 + 12)*(-20*xi_3 + 1938*std::pow(2*xi_3 - 1, 5) + 4845*std::pow(2*xi_3 - 1, 4) + 4080*std::pow(2*xi_3 - 1, 3) + 1190*std::pow(2*xi_3 - 1, 2) - 21)/(8*xi_3 - 8);
  187 => (1/256)*(24*xi_1 + 12*xi_2 + 12*xi_3 - 12)*(126*xi_2*std::pow(xi_3 - 1, 3) - 225*std::pow(-xi_3 + 1, 2)*std::pow(-2*xi_2 - xi_3 + 1, 2) + 165*(-xi_3 + 1)*std::pow(-2*xi_2 - xi_3 + 1, 3) + 68*std::pow(xi_3 - 1, 4))*(5848*xi_3 + 4845*std::pow(2*xi_3 - 1, 4) + 11628*std::pow(2*xi_3 - 1, 3) + 9486*std::pow(2*xi_3 - 1, 2) - 2687)/(xi_3 - 1);
  188 => (1/128)*(24*xi_1 + 12*xi_2 + 12*xi_3 - 12)*(1584*xi_3 + 570*std::pow(2*xi_3 - 1, 3) + 1197*std::pow(2*xi_3 - 1, 2) - 631)*(200*xi_2*std::pow(xi_3 - 1, 3) + 71*std::pow(xi_3 - 1, 4) + 330*std::pow(xi_3 - 1, 2)*std::pow(2*xi_2 + xi_3 - 1, 2) - 1100*(xi_3 - 1)*std::pow(2*xi_2 + xi_3 - 1, 3) + 715*std::pow(2*xi_2 + xi_3 - 1, 4));
  189 => (304*xi_3 + 95*std::pow(2*xi_3 - 1, 2) - 93)*(-24*xi_1 - 12*xi_2 - 12*xi_3 + 12)*(770*xi_2*std::pow(xi_3 - 1, 5) + 386*std::pow(xi_3 - 1, 6) - 990*std::pow(xi_3 - 1, 4)*std::pow(2*xi_2 + xi_3 - 1, 2) - 1430*std::pow(xi_3 - 1, 3)*std::pow(2*xi_2 + xi_3 - 1, 3) + 5005*std::pow(xi_3 - 1, 2)*std::pow(2*xi_2 + xi_3 - 1, 4) - 3003*(xi_3 - 1)*std::pow(2*xi_2 + xi_3 - 1, 5))/(128*xi_3 - 128);
  190 => (1/32)*(20*xi_3 - 1)*(-24*xi_1 - 12*xi_2 - 12*xi_3 + 12)*(96*xi_2*std::pow(xi_3 - 1, 5) + 23*std::pow(xi_3 - 1, 6) + 780*std::pow(xi_3 - 1, 4)*std::pow(2*xi_2 + xi_3 - 1, 2) - 1820*std::pow(xi_3 - 1, 3)*std::pow(2*xi_2 + xi_3 - 1, 3) - 1365*std::pow(xi_3 - 1, 2)*std::pow(2*xi_2 + xi_3 - 1, 4) + 5460*(xi_3 - 1)*std::pow(2*xi_2 + xi_3 - 1, 5) - 3094*std::pow(2*xi_2 + xi_3 - 1, 6));
  191 => (1/64)*(24*xi_1 + 12*xi_2 + 12*xi_3 - 12)*(910*xi_2*std::pow(xi_3 - 1, 7) - 819*std::pow(-xi_3 + 1, 6)*std::pow(-2*xi_2 - xi_3 + 1, 2) + 4641*std::pow(-xi_3 + 1, 3)*std::pow(-2*xi_2 - xi_3 + 1, 5) - 23205*std::pow(-xi_3 + 1, 2)*std::pow(-2*xi_2 - xi_3 + 1, 6) + 12597*(-xi_3 + 1)*std::pow(-2*xi_2 - xi_3 + 1, 7) + 448*std::pow(xi_3 - 1, 8) + 5005*std::pow(xi_3 - 1, 5)*std::pow(-2*xi_2 - xi_3 + 1, 3) + 11375*std::pow(xi_3 - 1, 4)*std::pow(-2*xi_2 - xi_3 + 1, 4))/(xi_3 - 1);
  192 => -(6*std::pow(xi_2 + xi_3 - 1, 3) - 30*(xi_2 + xi_3 - 1)*std::pow(2*xi_1 + xi_2 + xi_3 - 1, 2))*(-600*xi_3 + 4845*std::pow(2*xi_3 - 1, 6) + 11628*std::pow(2*xi_3 - 1, 5) + 8415*std::pow(2*xi_3 - 1, 4) + 680*std::pow(2*xi_3 - 1, 3) - 1245*std::pow(2*xi_3 - 1, 2) + 301)/(16*xi_2 + 16*xi_3 - 16);
  193 => (1/8)*(30*(-xi_2 - xi_3 + 1)*std::pow(2*xi_1 + xi_2 + xi_3 - 1, 2) + 6*std::pow(xi_2 + xi_3 - 1, 3))*(9*xi_2 + xi_3 - 1)*(-20*xi_3 + 1938*std::pow(2*xi_3 - 1, 5) + 4845*std::pow(2*xi_3 - 1, 4) + 4080*std::pow(2*xi_3 - 1, 3) + 1190*std::pow(2*xi_3 - 1, 2) - 21)/(-xi_2 - xi_3 + 1);
  194 => (1/128)*(30*(-xi_2 - xi_3 + 1)*std::pow(2*xi_1 + xi_2 + xi_3 - 1, 2) + 6*std::pow(xi_2 + xi_3 - 1, 3))*(140*xi_2*std::pow(xi_3 - 1, 2) + 55*(-xi_3 + 1)*std::pow(-2*xi_2 - xi_3 + 1, 2) + 51*std::pow(xi_3 - 1, 3))*(5848*xi_3 + 4845*std::pow(2*xi_3 - 1, 4) + 11628*std::pow(2*xi_3 - 1, 3) + 9486*std::pow(2*xi_3 - 1, 2) - 2687)/((xi_3 - 1)*(xi_2 + xi_3 - 1));
  195 => -(6*std::pow(xi_2 + xi_3 - 1, 3) - 30*(xi_2 + xi_3 - 1)*std::pow(2*xi_1 + xi_2 + xi_3 - 1, 2))*(1584*xi_3 + 570*std::pow(2*xi_3 - 1, 3) + 1197*std::pow(2*xi_3 - 1, 2) - 631)*(198*xi_2*std::pow(xi_3 - 1, 2) + 92*std::pow(xi_3 - 1, 3) - 231*(xi_3 - 1)*std::pow(2*xi_2 + xi_3 - 1, 2) + 143*std::pow(2*xi_2 + xi_3 - 1, 3))/(32*xi_2 + 32*xi_3 - 32);
  196 => (6*std::pow(xi_2 + xi_3 - 1, 3) - 30*(xi_2 + xi_3 - 1)*std::pow(2*xi_1 + xi_2 + xi_3 - 1, 2))*(304*xi_3 + 95*std::pow(2*xi_3 - 1, 2) - 93)*(168*xi_2*std::pow(xi_3 - 1, 3) + 127*std::pow(xi_3 - 1, 4) - 1326*std::pow(xi_3 - 1, 2)*std::pow(2*xi_2 + xi_3 - 1, 2) + 2548*(xi_3 - 1)*std::pow(2*xi_2 + xi_3 - 1, 3) - 1365*std::pow(2*xi_2 + xi_3 - 1, 4))/(64*xi_2 + 64*xi_3 - 64);
  197 => (1/16)*(20*xi_3 - 1)*(30*(-xi_2 - xi_3 + 1)*std::pow(2*xi_1 + xi_2 + xi_3 - 1, 2) + 6*std::pow(xi_2 + xi_3 - 1, 3))*(390*xi_2*std::pow(xi_3 - 1, 5) + 1820*std::pow(-xi_3 + 1, 3)*std::pow(2*xi_2 + xi_3 - 1, 3) + 1547*(-xi_3 + 1)*std::pow(2*xi_2 + xi_3 - 1, 5) + 174*std::pow(xi_3 - 1, 6) + 3185*std::pow(xi_3 - 1, 2)*std::pow(2*xi_2 + xi_3 - 1, 4))/((xi_3 - 1)*(xi_2 + xi_3 - 1));
  198 => -(6*std::pow(xi_2 + xi_3 - 1, 3) - 30*(xi_2 + xi_3 - 1)*std::pow(2*xi_1 + xi_2 + xi_3 - 1, 2))*(588*xi_2*std::pow(xi_3 - 1, 5) + 317*std::pow(xi_3 - 1, 6) - 1995*std::pow(xi_3 - 1, 4)*std::pow(2*xi_2 + xi_3 - 1, 2) + 980*std::pow(xi_3 - 1, 3)*std::pow(2*xi_2 + xi_3 - 1, 3) + 8925*std::pow(xi_3 - 1, 2)*std::pow(2*xi_2 + xi_3 - 1, 4) - 14994*(xi_3 - 1)*std::pow(2*xi_2 + xi_3 - 1, 5) + 6783*std::pow(2*xi_2 + xi_3 - 1, 6))/(32*xi_2 + 32*xi_3 - 32);
  199 => (1/32)*(-30*std::pow(xi_2 + xi_3 - 1, 2)*(8*xi_1 + 4*xi_2 + 4*xi_3 - 4) + 280*std::pow(2*xi_1 + xi_2 + xi_3 - 1, 3))*(-20*xi_3 + 1938*std::pow(2*xi_3 - 1, 5) + 4845*std::pow(2*xi_3 - 1, 4) + 4080*std::pow(2*xi_3 - 1, 3) + 1190*std::pow(2*xi_3 - 1, 2) - 21);
  200 => (1/128)*(-30*std::pow(xi_2 + xi_3 - 1, 2)*(8*xi_1 + 4*xi_2 + 4*xi_3 - 4) + 280*std::pow(2*xi_1 + xi_2 + xi_3 - 1, 3))*(11*xi_2 + xi_3 - 1)*(5848*xi_3 + 4845*std::pow(2*xi_3 - 1, 4) + 11628*std::pow(2*xi_3 - 1, 3) + 9486*std::pow(2*xi_3 - 1, 2) - 2687);
  201 => -(-30*std::pow(xi_2 + xi_3 - 1, 2)*(8*xi_1 + 4*xi_2 + 4*xi_3 - 4) + 280*std::pow(2*xi_1 + xi_2 + xi_3 - 1, 3))*(108*xi_2*std::pow(xi_3 - 1, 2) + 37*std::pow(xi_3 - 1, 3) - 39*(xi_3 - 1)*std::pow(2*xi_2 + xi_3 - 1, 2))*(1584*xi_3 + 570*std::pow(2*xi_3 - 1, 3) + 1197*std::pow(2*xi_3 - 1, 2) - 631)/(64*xi_3 - 64);
  202 => (1/128)*(-30*std::pow(xi_2 + xi_3 - 1, 2)*(8*xi_1 + 4*xi_2 + 4*xi_3 - 4) + 280*std::pow(2*xi_1 + xi_2 + xi_3 - 1, 3))*(304*xi_3 + 95*std::pow(2*xi_3 - 1, 2) - 93)*(858*xi_2*std::pow(xi_3 - 1, 3) - 819*std::pow(-xi_3 + 1, 2)*std::pow(-2*xi_2 - xi_3 + 1, 2) + 455*(-xi_3 + 1)*std::pow(-2*xi_2 - xi_3 + 1, 3) + 372*std::pow(xi_3 - 1, 4))/(xi_3 - 1);
  203 => (1/32)*(20*xi_3 - 1)*(-30*std::pow(xi_2 + xi_3 - 1, 2)*(8*xi_1 + 4*xi_2 + 4*xi_3 - 4) + 280*std::pow(2*xi_1 + xi_2 + xi_3 - 1, 3))*(-336*xi_2*std::pow(xi_3 - 1, 3) - 171*std::pow(xi_3 - 1, 4) + 840*std::pow(xi_3 - 1, 2)*std::pow(2*xi_2 + xi_3 - 1, 2) - 1260*(xi_3 - 1)*std::pow(2*xi_2 + xi_3 - 1, 3) + 595*std::pow(2*xi_2 + xi_3 - 1, 4));
  204 => -(-30*std::pow(xi_2 + xi_3 - 1, 2)*(8*xi_1 + 4*xi_2 + 4*xi_3 - 4) + 280*std::pow(2*xi_1 + xi_2 + xi_3 - 1, 3))*(330*xi_2*std::pow(xi_3 - 1, 5) + 114*std::pow(xi_3 - 1, 6) + 1170*std::pow(xi_3 - 1, 4)*std::pow(2*xi_2 + xi_3 - 1, 2) - 5270*std::pow(xi_3 - 1, 3)*std::pow(2*xi_2 + xi_3 - 1, 3) + 6885*std::pow(xi_3 - 1, 2)*std::pow(2*xi_2 + xi_3 - 1, 4) - 2907*(xi_3 - 1)*std::pow(2*xi_2 + xi_3 - 1, 5))/(64*xi_3 - 64);
  205 => (1/128)*(-630*(-xi_2 - xi_3 + 1)*std::pow(-2*xi_1 - xi_2 - xi_3 + 1, 4) + 30*std::pow(xi_2 + xi_3 - 1, 5) - 420*std::pow(xi_2 + xi_3 - 1, 3)*std::pow(-2*xi_1 - xi_2 - xi_3 + 1, 2))*(5848*xi_3 + 4845*std::pow(2*xi_3 - 1, 4) + 11628*std::pow(2*xi_3 - 1, 3) + 9486*std::pow(2*xi_3 - 1, 2) - 2687)/(xi_2 + xi_3 - 1);
  206 => (1/32)*(13*xi_2 + xi_3 - 1)*(-630*(-xi_2 - xi_3 + 1)*std::pow(-2*xi_1 - xi_2 - xi_3 + 1, 4) + 30*std::pow(xi_2 + xi_3 - 1, 5) - 420*std::pow(xi_2 + xi_3 - 1, 3)*std::pow(-2*xi_1 - xi_2 - xi_3 + 1, 2))*(1584*xi_3 + 570*std::pow(2*xi_3 - 1, 3) + 1197*std::pow(2*xi_3 - 1, 2) - 631)/(xi_2 + xi_3 - 1);
  207 => -1/64*(304*xi_3 + 95*std::pow(2*xi_3 - 1, 2) - 93)*(308*xi_2*std::pow(xi_3 - 1, 2) + 101*std::pow(xi_3 - 1, 3) - 105*(xi_3 - 1)*std::pow(2*xi_2 + xi_3 - 1, 2))*(30*std::pow(xi_2 + xi_3 - 1, 5) - 420*std::pow(xi_2 + xi_3 - 1, 3)*std::pow(2*xi_1 + xi_2 + xi_3 - 1, 2) + 630*(xi_2 + xi_3 - 1)*std::pow(2*xi_1 + xi_2 + xi_3 - 1, 4))/((xi_3 - 1)*(xi_2 + xi_3 - 1));
  208 => (1/8)*(20*xi_3 - 1)*(-630*(-xi_2 - xi_3 + 1)*std::pow(-2*xi_1 - xi_2 - xi_3 + 1, 4) + 30*std::pow(xi_2 + xi_3 - 1, 5) - 420*std::pow(xi_2 + xi_3 - 1, 3)*std::pow(-2*xi_1 - xi_2 - xi_3 + 1, 2))*(195*xi_2*std::pow(xi_3 - 1, 2) + 81*std::pow(xi_3 - 1, 3) - 165*(xi_3 - 1)*std::pow(-2*xi_2 - xi_3 + 1, 2) - 85*std::pow(-2*xi_2 - xi_3 + 1, 3))/(xi_2 + xi_3 - 1);
  209 => (1/32)*(-630*(-xi_2 - xi_3 + 1)*std::pow(-2*xi_1 - xi_2 - xi_3 + 1, 4) + 30*std::pow(xi_2 + xi_3 - 1, 5) - 420*std::pow(xi_2 + xi_3 - 1, 3)*std::pow(-2*xi_1 - xi_2 - xi_3 + 1, 2))*(-968*xi_2*std::pow(xi_3 - 1, 3) - 455*std::pow(xi_3 - 1, 4) + 1734*std::pow(xi_3 - 1, 2)*std::pow(2*xi_2 + xi_3 - 1, 2) - 2244*(xi_3 - 1)*std::pow(2*xi_2 + xi_3 - 1, 3) + 969*std::pow(2*xi_2 + xi_3 - 1, 4))/(xi_2 + xi_3 - 1);
  210 => (1/64)*(105*std::pow(xi_2 + xi_3 - 1, 4)*(8*xi_1 + 4*xi_2 + 4*xi_3 - 4) - 2520*std::pow(xi_2 + xi_3 - 1, 2)*std::pow(2*xi_1 + xi_2 + xi_3 - 1, 3) + 2772*std::pow(2*xi_1 + xi_2 + xi_3 - 1, 5))*(1584*xi_3 + 570*std::pow(2*xi_3 - 1, 3) + 1197*std::pow(2*xi_3 - 1, 2) - 631);
  211 => (1/32)*(15*xi_2 + xi_3 - 1)*(304*xi_3 + 95*std::pow(2*xi_3 - 1, 2) - 93)*(105*std::pow(xi_2 + xi_3 - 1, 4)*(8*xi_1 + 4*xi_2 + 4*xi_3 - 4) - 2520*std::pow(xi_2 + xi_3 - 1, 2)*std::pow(2*xi_1 + xi_2 + xi_3 - 1, 3) + 2772*std::pow(2*xi_1 + xi_2 + xi_3 - 1, 5));
  212 => (20*xi_3 - 1)*(104*xi_2*std::pow(xi_3 - 1, 2) + 33*std::pow(xi_3 - 1, 3) - 34*(xi_3 - 1)*std::pow(2*xi_2 + xi_3 - 1, 2))*(-105*std::pow(xi_2 + xi_3 - 1, 4)*(8*xi_1 + 4*xi_2 + 4*xi_3 - 4) + 2520*std::pow(xi_2 + xi_3 - 1, 2)*std::pow(2*xi_1 + xi_2 + xi_3 - 1, 3) - 2772*std::pow(2*xi_1 + xi_2 + xi_3 - 1, 5))/(16*xi_3 - 16);
  213 => (1/128)*(105*std::pow(xi_2 + xi_3 - 1, 4)*(8*xi_1 + 4*xi_2 + 4*xi_3 - 4) - 2520*std::pow(xi_2 + xi_3 - 1, 2)*std::pow(2*xi_1 + xi_2 + xi_3 - 1, 3) + 2772*std::pow(2*xi_1 + xi_2 + xi_3 - 1, 5))*(2550*xi_2*std::pow(xi_3 - 1, 3) - 1989*std::pow(-xi_3 + 1, 2)*std::pow(-2*xi_2 - xi_3 + 1, 2) + 969*(-xi_3 + 1)*std::pow(-2*xi_2 - xi_3 + 1, 3) + 1028*std::pow(xi_3 - 1, 4))/(xi_3 - 1);
  214 => -(304*xi_3 + 95*std::pow(2*xi_3 - 1, 2) - 93)*(70*std::pow(xi_2 + xi_3 - 1, 7) - 1890*std::pow(xi_2 + xi_3 - 1, 5)*std::pow(2*xi_1 + xi_2 + xi_3 - 1, 2) + 6930*std::pow(xi_2 + xi_3 - 1, 3)*std::pow(2*xi_1 + xi_2 + xi_3 - 1, 4) - 6006*(xi_2 + xi_3 - 1)*std::pow(2*xi_1 + xi_2 + xi_3 - 1, 6))/(32*xi_2 + 32*xi_3 - 32);
  215 => -(20*xi_3 - 1)*(17*xi_2 + xi_3 - 1)*(70*std::pow(xi_2 + xi_3 - 1, 7) - 1890*std::pow(xi_2 + xi_3 - 1, 5)*std::pow(2*xi_1 + xi_2 + xi_3 - 1, 2) + 6930*std::pow(xi_2 + xi_3 - 1, 3)*std::pow(2*xi_1 + xi_2 + xi_3 - 1, 4) - 6006*(xi_2 + xi_3 - 1)*std::pow(2*xi_1 + xi_2 + xi_3 - 1, 6))/(16*xi_2 + 16*xi_3 - 16);
  216 => (1/64)*(540*xi_2*std::pow(xi_3 - 1, 2) + 171*(-xi_3 + 1)*std::pow(-2*xi_2 - xi_3 + 1, 2) + 167*std::pow(xi_3 - 1, 3))*(1890*std::pow(-xi_2 - xi_3 + 1, 5)*std::pow(2*xi_1 + xi_2 + xi_3 - 1, 2) + 6006*(-xi_2 - xi_3 + 1)*std::pow(2*xi_1 + xi_2 + xi_3 - 1, 6) + 70*std::pow(xi_2 + xi_3 - 1, 7) + 6930*std::pow(xi_2 + xi_3 - 1, 3)*std::pow(2*xi_1 + xi_2 + xi_3 - 1, 4))/((xi_3 - 1)*(xi_2 + xi_3 - 1));
  217 => (1/128)*(20*xi_3 - 1)*(-1260*std::pow(xi_2 + xi_3 - 1, 6)*(8*xi_1 + 4*xi_2 + 4*xi_3 - 4) + 55440*std::pow(xi_2 + xi_3 - 1, 4)*std::pow(2*xi_1 + xi_2 + xi_3 - 1, 3) - 144144*std::pow(xi_2 + xi_3 - 1, 2)*std::pow(2*xi_1 + xi_2 + xi_3 - 1, 5) + 102960*std::pow(2*xi_1 + xi_2 + xi_3 - 1, 7));
  218 => (1/128)*(19*xi_2 + xi_3 - 1)*(-1260*std::pow(xi_2 + xi_3 - 1, 6)*(8*xi_1 + 4*xi_2 + 4*xi_3 - 4) + 55440*std::pow(xi_2 + xi_3 - 1, 4)*std::pow(2*xi_1 + xi_2 + xi_3 - 1, 3) - 144144*std::pow(xi_2 + xi_3 - 1, 2)*std::pow(2*xi_1 + xi_2 + xi_3 - 1, 5) + 102960*std::pow(2*xi_1 + xi_2 + xi_3 - 1, 7));
  219 => (1/128)*(-180180*std::pow(-xi_2 - xi_3 + 1, 5)*std::pow(-2*xi_1 - xi_2 - xi_3 + 1, 4) - 218790*(-xi_2 - xi_3 + 1)*std::pow(-2*xi_1 - xi_2 - xi_3 + 1, 8) + 630*std::pow(xi_2 + xi_3 - 1, 9) - 27720*std::pow(xi_2 + xi_3 - 1, 7)*std::pow(-2*xi_1 - xi_2 - xi_3 + 1, 2) - 360360*std::pow(xi_2 + xi_3 - 1, 3)*std::pow(-2*xi_1 - xi_2 - xi_3 + 1, 6))/(xi_2 + xi_3 - 1);
  220 => 0;
  221 => 0;
  222 => 0;
  223 => 0;
  224 => 0;
  225 => 0;
  226 => 0;
  227 => 0;
  228 => 0;
  229 => 0;
  230 => 0;
  231 => -1197/32*xi_3 + (124355/64)*std::pow(2*xi_3 - 1, 9) + (101745/32)*std::pow(2*xi_3 - 1, 8) - 14535/16*std::pow(2*xi_3 - 1, 7) - 6783/2*std::pow(2*xi_3 - 1, 6) - 18207/32*std::pow(2*xi_3 - 1, 5) + (16065/16)*std::pow(2*xi_3 - 1, 4) + (4305/16)*std::pow(2*xi_3 - 1, 3) - 315/4*std::pow(2*xi_3 - 1, 2) + 1239/64;
  232 => (1/64)*(5*xi_2 + xi_3 - 1)*(2640*xi_3 + 159885*std::pow(2*xi_3 - 1, 8) + 348840*std::pow(2*xi_3 - 1, 7) + 135660*std::pow(2*xi_3 - 1, 6) - 162792*std::pow(2*xi_3 - 1, 5) - 117810*std::pow(2*xi_3 - 1, 4) + 4760*std::pow(2*xi_3 - 1, 3) + 14700*std::pow(2*xi_3 - 1, 2) - 1499);
  233 => -2*(36*xi_2*std::pow(xi_3 - 1, 2) + 17*std::pow(xi_3 - 1, 3) - 21*(xi_3 - 1)*std::pow(2*xi_2 + xi_3 - 1, 2))*(182*xi_3 + 10659*std::pow(2*xi_3 - 1, 7) + 27132*std::pow(2*xi_3 - 1, 6) + 20349*std::pow(2*xi_3 - 1, 5) - 5355*std::pow(2*xi_3 - 1, 3) - 1428*std::pow(2*xi_3 - 1, 2) - 59)/(32*xi_3 - 32);
  234 => (1/64)*(2*std::pow(xi_3 - 1, 3) - 21*(xi_3 - 1)*std::pow(2*xi_2 + xi_3 - 1, 2) + 21*std::pow(2*xi_2 + xi_3 - 1, 3))*(-10812*xi_3 + 74613*std::pow(2*xi_3 - 1, 6) + 203490*std::pow(2*xi_3 - 1, 5) + 188955*std::pow(2*xi_3 - 1, 4) + 58140*std::pow(2*xi_3 - 1, 3) - 6885*std::pow(2*xi_3 - 1, 2) + 5011);
  235 => (1/64)*(88*xi_2*std::pow(xi_3 - 1, 3) + 41*std::pow(xi_3 - 1, 4) - 18*std::pow(xi_3 - 1, 2)*std::pow(2*xi_2 + xi_3 - 1, 2) - 180*(xi_3 - 1)*std::pow(2*xi_2 + xi_3 - 1, 3) + 165*std::pow(2*xi_2 + xi_3 - 1, 4))*(3150*xi_3 + 13167*std::pow(2*xi_3 - 1, 5) + 35910*std::pow(2*xi_3 - 1, 4) + 34770*std::pow(2*xi_3 - 1, 3) + 13680*std::pow(2*xi_3 - 1, 2) - 1669);
  236 => (1/256)*(11704*xi_3 + 7315*std::pow(2*xi_3 - 1, 4) + 18620*std::pow(2*xi_3 - 1, 3) + 16530*std::pow(2*xi_3 - 1, 2) - 5209)*(-90*xi_2*std::pow(xi_3 - 1, 5) - 70*std::pow(-xi_3 + 1, 6) - 1485*std::pow(-xi_3 + 1, 2)*std::pow(-2*xi_2 - xi_3 + 1, 4) + 1287*(-xi_3 + 1)*std::pow(-2*xi_2 - xi_3 + 1, 5) + 630*std::pow(xi_3 - 1, 4)*std::pow(-2*xi_2 - xi_3 + 1, 2) + 330*std::pow(xi_3 - 1, 3)*std::pow(-2*xi_2 - xi_3 + 1, 3))/(xi_3 - 1);
  237 => -2*(1170*xi_3 + 385*std::pow(2*xi_3 - 1, 3) + 840*std::pow(2*xi_3 - 1, 2) - 457)*(780*xi_2*std::pow(xi_3 - 1, 6) + 365*std::pow(xi_3 - 1, 7) + 165*std::pow(xi_3 - 1, 5)*std::pow(2*xi_2 + xi_3 - 1, 2) - 3740*std::pow(xi_3 - 1, 4)*std::pow(2*xi_2 + xi_3 - 1, 3) + 2145*std::pow(xi_3 - 1, 3)*std::pow(2*xi_2 + xi_3 - 1, 4) + 6006*std::pow(xi_3 - 1, 2)*std::pow(2*xi_2 + xi_3 - 1, 5) - 5005*(xi_3 - 1)*std::pow(2*xi_2 + xi_3 - 1, 6))/(128*xi_3 - 128);
  238 => (1/64)*(756*xi_3 + 231*std::pow(2*xi_3 - 1, 2) - 227)*(154*xi_2*std::pow(xi_3 - 1, 7) - 924*std::pow(-xi_3 + 1, 6)*std::pow(-2*xi_2 - xi_3 + 1, 2) - 6006*std::pow(-xi_3 + 1, 2)*std::pow(-2*xi_2 - xi_3 + 1, 6) + 4862*(-xi_3 + 1)*std::pow(-2*xi_2 - xi_3 + 1, 7) + 98*std::pow(xi_3 - 1, 8) + 5005*std::pow(xi_3 - 1, 4)*std::pow(-2*xi_2 - xi_3 + 1, 4) + 3003*std::pow(xi_3 - 1, 3)*std::pow(-2*xi_2 - xi_3 + 1, 5))/(xi_3 - 1);
  239 => (1/64)*(22*xi_3 - 1)*(1680*xi_2*std::pow(xi_3 - 1, 7) + 13832*std::pow(-xi_3 + 1, 5)*std::pow(2*xi_2 + xi_3 - 1, 3) - 30940*std::pow(-xi_3 + 1, 2)*std::pow(2*xi_2 + xi_3 - 1, 6) + 47736*(-xi_3 + 1)*std::pow(2*xi_2 + xi_3 - 1, 7) + 791*std::pow(xi_3 - 1, 8) + 1092*std::pow(xi_3 - 1, 6)*std::pow(2*xi_2 + xi_3 - 1, 2) + 2730*std::pow(xi_3 - 1, 4)*std::pow(2*xi_2 + xi_3 - 1, 4) + 50232*std::pow(xi_3 - 1, 3)*std::pow(2*xi_2 + xi_3 - 1, 5) + 37791*std::pow(2*xi_2 + xi_3 - 1, 8));
  240 => -2*(1638*xi_2*std::pow(xi_3 - 1, 9) + 966*std::pow(xi_3 - 1, 10) - 9828*std::pow(xi_3 - 1, 8)*std::pow(2*xi_2 + xi_3 - 1, 2) - 5460*std::pow(xi_3 - 1, 7)*std::pow(2*xi_2 + xi_3 - 1, 3) + 90090*std::pow(xi_3 - 1, 6)*std::pow(2*xi_2 + xi_3 - 1, 4) - 27846*std::pow(xi_3 - 1, 5)*std::pow(2*xi_2 + xi_3 - 1, 5) - 241332*std::pow(xi_3 - 1, 4)*std::pow(2*xi_2 + xi_3 - 1, 6) + 151164*std::pow(xi_3 - 1, 3)*std::pow(2*xi_2 + xi_3 - 1, 7) + 188955*std::pow(xi_3 - 1, 2)*std::pow(2*xi_2 + xi_3 - 1, 8) - 146965*(xi_3 - 1)*std::pow(2*xi_2 + xi_3 - 1, 9))/(256*xi_3 - 256);
  241 => (1/256)*(24*xi_1 + 12*xi_2 + 12*xi_3 - 12)*(2640*xi_3 + 159885*std::pow(2*xi_3 - 1, 8) + 348840*std::pow(2*xi_3 - 1, 7) + 135660*std::pow(2*xi_3 - 1, 6) - 162792*std::pow(2*xi_3 - 1, 5) - 117810*std::pow(2*xi_3 - 1, 4) + 4760*std::pow(2*xi_3 - 1, 3) + 14700*std::pow(2*xi_3 - 1, 2) - 1499);
  242 => (1/16)*(7*xi_2 + xi_3 - 1)*(24*xi_1 + 12*xi_2 + 12*xi_3 - 12)*(182*xi_3 + 10659*std::pow(2*xi_3 - 1, 7) + 27132*std::pow(2*xi_3 - 1, 6) + 20349*std::pow(2*xi_3 - 1, 5) - 5355*std::pow(2*xi_3 - 1, 3) - 1428*std::pow(2*xi_3 - 1, 2) - 59);
  243 => (20*xi_2*std::pow(xi_3 - 1, 2) + 8*std::pow(xi_3 - 1, 3) - 9*(xi_3 - 1)*std::pow(2*xi_2 + xi_3 - 1, 2))*(-24*xi_1 - 12*xi_2 - 12*xi_3 + 12)*(-10812*xi_3 + 74613*std::pow(2*xi_3 - 1, 6) + 203490*std::pow(2*xi_3 - 1, 5) + 188955*std::pow(2*xi_3 - 1, 4) + 58140*std::pow(2*xi_3 - 1, 3) - 6885*std::pow(2*xi_3 - 1, 2) + 5011)/(128*xi_3 - 128);
  244 => (1/256)*(24*xi_1 + 12*xi_2 + 12*xi_3 - 12)*(126*xi_2*std::pow(xi_3 - 1, 3) - 225*std::pow(-xi_3 + 1, 2)*std::pow(-2*xi_2 - xi_3 + 1, 2) + 165*(-xi_3 + 1)*std::pow(-2*xi_2 - xi_3 + 1, 3) + 68*std::pow(xi_3 - 1, 4))*(3150*xi_3 + 13167*std::pow(2*xi_3 - 1, 5) + 35910*std::pow(2*xi_3 - 1, 4) + 34770*std::pow(2*xi_3 - 1, 3) + 13680*std::pow(2*xi_3 - 1, 2) - 1669)/(xi_3 - 1);
  245 => (1/512)*(24*xi_1 + 12*xi_2 + 12*xi_3 - 12)*(11704*xi_3 + 7315*std::pow(2*xi_3 - 1, 4) + 18620*std::pow(2*xi_3 - 1, 3) + 16530*std::pow(2*xi_3 - 1, 2) - 5209)*(200*xi_2*std::pow(xi_3 - 1, 3) + 71*std::pow(xi_3 - 1, 4) + 330*std::pow(xi_3 - 1, 2)*std::pow(2*xi_2 + xi_3 - 1, 2) - 1100*(xi_3 - 1)*std::pow(2*xi_2 + xi_3 - 1, 3) + 715*std::pow(2*xi_2 + xi_3 - 1, 4));
  246 => (-24*xi_1 - 12*xi_2 - 12*xi_3 + 12)*(1170*xi_3 + 385*std::pow(2*xi_3 - 1, 3) + 840*std::pow(2*xi_3 - 1, 2) - 457)*(770*xi_2*std::pow(xi_3 - 1, 5) + 386*std::pow(xi_3 - 1, 6) - 990*std::pow(xi_3 - 1, 4)*std::pow(2*xi_2 + xi_3 - 1, 2) - 1430*std::pow(xi_3 - 1, 3)*std::pow(2*xi_2 + xi_3 - 1, 3) + 5005*std::pow(xi_3 - 1, 2)*std::pow(2*xi_2 + xi_3 - 1, 4) - 3003*(xi_3 - 1)*std::pow(2*xi_2 + xi_3 - 1, 5))/(128*xi_3 - 128);
  247 => (1/128)*(756*xi_3 + 231*std::pow(2*xi_3 - 1, 2) - 227)*(-24*xi_1 - 12*xi_2 - 12*xi_3 + 12)*(96*xi_2*std::pow(xi_3 - 1, 5) + 23*std::pow(xi_3 - 1, 6) + 780*std::pow(xi_3 - 1, 4)*std::pow(2*xi_2 + xi_3 - 1, 2) - 1820*std::pow(xi_3 - 1, 3)*std::pow(2*xi_2 + xi_3 - 1, 3) - 1365*std::pow(xi_3 - 1, 2)*std::pow(2*xi_2 + xi_3 - 1, 4) + 5460*(xi_3 - 1)*std::pow(2*xi_2 + xi_3 - 1, 5) - 3094*std::pow(2*xi_2 + xi_3 - 1, 6));
  248 => (1/64)*(22*xi_3 - 1)*(24*xi_1 + 12*xi_2 + 12*xi_3 - 12)*(910*xi_2*std::pow(xi_3 - 1, 7) - 819*std::pow(-xi_3 + 1, 6)*std::pow(-2*xi_2 - xi_3 + 1, 2) + 4641*std::pow(-xi_3 + 1, 3)*std::pow(-2*xi_2 - xi_3 + 1, 5) - 23205*std::pow(-xi_3 + 1, 2)*std::pow(-2*xi_2 - xi_3 + 1, 6) + 12597*(-xi_3 + 1)*std::pow(-2*xi_2 - xi_3 + 1, 7) + 448*std::pow(xi_3 - 1, 8) + 5005*std::pow(xi_3 - 1, 5)*std::pow(-2*xi_2 - xi_3 + 1, 3) + 11375*std::pow(xi_3 - 1, 4)*std::pow(-2*xi_2 - xi_3 + 1, 4))/(xi_3 - 1);
  249 => (1/256)*(24*xi_1 + 12*xi_2 + 12*xi_3 - 12)*(112*xi_2*std::pow(xi_3 - 1, 7) - 119*std::pow(-xi_3 + 1, 8) + 17080*std::pow(-xi_3 + 1, 5)*std::pow(2*xi_2 + xi_3 - 1, 3) - 55930*std::pow(-xi_3 + 1, 4)*std::pow(2*xi_2 + xi_3 - 1, 4) + 193800*(-xi_3 + 1)*std::pow(2*xi_2 + xi_3 - 1, 7) + 9660*std::pow(xi_3 - 1, 6)*std::pow(2*xi_2 + xi_3 - 1, 2) + 128520*std::pow(xi_3 - 1, 3)*std::pow(2*xi_2 + xi_3 - 1, 5) + 27132*std::pow(xi_3 - 1, 2)*std::pow(2*xi_2 + xi_3 - 1, 6) + 101745*std::pow(2*xi_2 + xi_3 - 1, 8));
  250 => -(6*std::pow(xi_2 + xi_3 - 1, 3) - 30*(xi_2 + xi_3 - 1)*std::pow(2*xi_1 + xi_2 + xi_3 - 1, 2))*(182*xi_3 + 10659*std::pow(2*xi_3 - 1, 7) + 27132*std::pow(2*xi_3 - 1, 6) + 20349*std::pow(2*xi_3 - 1, 5) - 5355*std::pow(2*xi_3 - 1, 3) - 1428*std::pow(2*xi_3 - 1, 2) - 59)/(16*xi_2 + 16*xi_3 - 16);
  251 => (1/128)*(30*(-xi_2 - xi_3 + 1)*std::pow(2*xi_1 + xi_2 + xi_3 - 1, 2) + 6*std::pow(xi_2 + xi_3 - 1, 3))*(9*xi_2 + xi_3 - 1)*(-10812*xi_3 + 74613*std::pow(2*xi_3 - 1, 6) + 203490*std::pow(2*xi_3 - 1, 5) + 188955*std::pow(2*xi_3 - 1, 4) + 58140*std::pow(2*xi_3 - 1, 3) - 6885*std::pow(2*xi_3 - 1, 2) + 5011)/(-xi_2 - xi_3 + 1);
  252 => (1/128)*(30*(-xi_2 - xi_3 + 1)*std::pow(2*xi_1 + xi_2 + xi_3 - 1, 2) + 6*std::pow(xi_2 + xi_3 - 1, 3))*(140*xi_2*std::pow(xi_3 - 1, 2) + 55*(-xi_3 + 1)*std::pow(-2*xi_2 - xi_3 + 1, 2) + 51*std::pow(xi_3 - 1, 3))*(3150*xi_3 + 13167*std::pow(2*xi_3 - 1, 5) + 35910*std::pow(2*xi_3 - 1, 4) + 34770*std::pow(2*xi_3 - 1, 3) + 13680*std::pow(2*xi_3 - 1, 2) - 1669)/((xi_3 - 1)*(xi_2 + xi_3 - 1));
  253 => -(6*std::pow(xi_2 + xi_3 - 1, 3) - 30*(xi_2 + xi_3 - 1)*std::pow(2*xi_1 + xi_2 + xi_3 - 1, 2))*(198*xi_2*std::pow(xi_3 - 1, 2) + 92*std::pow(xi_3 - 1, 3) - 231*(xi_3 - 1)*std::pow(2*xi_2 + xi_3 - 1, 2) + 143*std::pow(2*xi_2 + xi_3 - 1, 3))*(11704*xi_3 + 7315*std::pow(2*xi_3 - 1, 4) + 18620*std::pow(2*xi_3 - 1, 3) + 16530*std::pow(2*xi_3 - 1, 2) - 5209)/(128*xi_2 + 128*xi_3 - 128);
  254 => (6*std::pow(xi_2 + xi_3 - 1, 3) - 30*(xi_2 + xi_3 - 1)*std::pow(2*xi_1 + xi_2 + xi_3 - 1, 2))*(1170*xi_3 + 385*std::pow(2*xi_3 - 1, 3) + 840*std::pow(2*xi_3 - 1, 2) - 457)*(168*xi_2*std::pow(xi_3 - 1, 3) + 127*std::pow(xi_3 - 1, 4) - 1326*std::pow(xi_3 - 1, 2)*std::pow(2*xi_2 + xi_3 - 1, 2) + 2548*(xi_3 - 1)*std::pow(2*xi_2 + xi_3 - 1, 3) - 1365*std::pow(2*xi_2 + xi_3 - 1, 4))/(64*xi_2 + 64*xi_3 - 64);
  255 => (1/64)*(30*(-xi_2 - xi_3 + 1)*std::pow(2*xi_1 + xi_2 + xi_3 - 1, 2) + 6*std::pow(xi_2 + xi_3 - 1, 3))*(756*xi_3 + 231*std::pow(2*xi_3 - 1, 2) - 227)*(390*xi_2*std::pow(xi_3 - 1, 5) + 1820*std::pow(-xi_3 + 1, 3)*std::pow(2*xi_2 + xi_3 - 1, 3) + 1547*(-xi_3 + 1)*std::pow(2*xi_2 + xi_3 - 1, 5) + 174*std::pow(xi_3 - 1, 6) + 3185*std::pow(xi_3 - 1, 2)*std::pow(2*xi_2 + xi_3 - 1, 4))/((xi_3 - 1)*(xi_2 + xi_3 - 1));
  256 => -(22*xi_3 - 1)*(6*std::pow(xi_2 + xi_3 - 1, 3) - 30*(xi_2 + xi_3 - 1)*std::pow(2*xi_1 + xi_2 + xi_3 - 1, 2))*(588*xi_2*std::pow(xi_3 - 1, 5) + 317*std::pow(xi_3 - 1, 6) - 1995*std::pow(xi_3 - 1, 4)*std::pow(2*xi_2 + xi_3 - 1, 2) + 980*std::pow(xi_3 - 1, 3)*std::pow(2*xi_2 + xi_3 - 1, 3) + 8925*std::pow(xi_3 - 1, 2)*std::pow(2*xi_2 + xi_3 - 1, 4) - 14994*(xi_3 - 1)*std::pow(2*xi_2 + xi_3 - 1, 5) + 6783*std::pow(2*xi_2 + xi_3 - 1, 6))/(32*xi_2 + 32*xi_3 - 32);
  257 => -1/32*(6*std::pow(xi_2 + xi_3 - 1, 3) - 30*(xi_2 + xi_3 - 1)*std::pow(2*xi_1 + xi_2 + xi_3 - 1, 2))*(630*xi_2*std::pow(xi_3 - 1, 7) + 272*std::pow(xi_3 - 1, 8) + 1155*std::pow(xi_3 - 1, 6)*std::pow(2*xi_2 + xi_3 - 1, 2) - 7735*std::pow(xi_3 - 1, 5)*std::pow(2*xi_2 + xi_3 - 1, 3) + 5355*std::pow(xi_3 - 1, 4)*std::pow(2*xi_2 + xi_3 - 1, 4) + 20349*std::pow(xi_3 - 1, 3)*std::pow(2*xi_2 + xi_3 - 1, 5) - 33915*std::pow(xi_3 - 1, 2)*std::pow(2*xi_2 + xi_3 - 1, 6) + 14535*(xi_3 - 1)*std::pow(2*xi_2 + xi_3 - 1, 7))/((xi_3 - 1)*(xi_2 + xi_3 - 1));
  258 => (1/512)*(-30*std::pow(xi_2 + xi_3 - 1, 2)*(8*xi_1 + 4*xi_2 + 4*xi_3 - 4) + 280*std::pow(2*xi_1 + xi_2 + xi_3 - 1, 3))*(-10812*xi_3 + 74613*std::pow(2*xi_3 - 1, 6) + 203490*std::pow(2*xi_3 - 1, 5) + 188955*std::pow(2*xi_3 - 1, 4) + 58140*std::pow(2*xi_3 - 1, 3) - 6885*std::pow(2*xi_3 - 1, 2) + 5011);
  259 => (1/128)*(-30*std::pow(xi_2 + xi_3 - 1, 2)*(8*xi_1 + 4*xi_2 + 4*xi_3 - 4) + 280*std::pow(2*xi_1 + xi_2 + xi_3 - 1, 3))*(11*xi_2 + xi_3 - 1)*(3150*xi_3 + 13167*std::pow(2*xi_3 - 1, 5) + 35910*std::pow(2*xi_3 - 1, 4) + 34770*std::pow(2*xi_3 - 1, 3) + 13680*std::pow(2*xi_3 - 1, 2) - 1669);
  260 => -(-30*std::pow(xi_2 + xi_3 - 1, 2)*(8*xi_1 + 4*xi_2 + 4*xi_3 - 4) + 280*std::pow(2*xi_1 + xi_2 + xi_3 - 1, 3))*(108*xi_2*std::pow(xi_3 - 1, 2) + 37*std::pow(xi_3 - 1, 3) - 39*(xi_3 - 1)*std::pow(2*xi_2 + xi_3 - 1, 2))*(11704*xi_3 + 7315*std::pow(2*xi_3 - 1, 4) + 18620*std::pow(2*xi_3 - 1, 3) + 16530*std::pow(2*xi_3 - 1, 2) - 5209)/(256*xi_3 - 256);
  261 => (1/128)*(-30*std::pow(xi_2 + xi_3 - 1, 2)*(8*xi_1 + 4*xi_2 + 4*xi_3 - 4) + 280*std::pow(2*xi_1 + xi_2 + xi_3 - 1, 3))*(1170*xi_3 + 385*std::pow(2*xi_3 - 1, 3) + 840*std::pow(2*xi_3 - 1, 2) - 457)*(858*xi_2*std::pow(xi_3 - 1, 3) - 819*std::pow(-xi_3 + 1, 2)*std::pow(-2*xi_2 - xi_3 + 1, 2) + 455*(-xi_3 + 1)*std::pow(-2*xi_2 - xi_3 + 1, 3) + 372*std::pow(xi_3 - 1, 4))/(xi_3 - 1);
  262 => (1/128)*(-30*std::pow(xi_2 + xi_3 - 1, 2)*(8*xi_1 + 4*xi_2 + 4*xi_3 - 4) + 280*std::pow(2*xi_1 + xi_2 + xi_3 - 1, 3))*(756*xi_3 + 231*std::pow(2*xi_3 - 1, 2) - 227)*(-336*xi_2*std::pow(xi_3 - 1, 3) - 171*std::pow(xi_3 - 1, 4) + 840*std::pow(xi_3 - 1, 2)*std::pow(2*xi_2 + xi_3 - 1, 2) - 1260*(xi_3 - 1)*std::pow(2*xi_2 + xi_3 - 1, 3) + 595*std::pow(2*xi_2 + xi_3 - 1, 4));
  263 => -(22*xi_3 - 1)*(-30*std::pow(xi_2 + xi_3 - 1, 2)*(8*xi_1 + 4*xi_2 + 4*xi_3 - 4) + 280*std::pow(2*xi_1 + xi_2 + xi_3 - 1, 3))*(330*xi_2*std::pow(xi_3 - 1, 5) + 114*std::pow(xi_3 - 1, 6) + 1170*std::pow(xi_3 - 1, 4)*std::pow(2*xi_2 + xi_3 - 1, 2) - 5270*std::pow(xi_3 - 1, 3)*std::pow(2*xi_2 + xi_3 - 1, 3) + 6885*std::pow(xi_3 - 1, 2)*std::pow(2*xi_2 + xi_3 - 1, 4) - 2907*(xi_3 - 1)*std::pow(2*xi_2 + xi_3 - 1, 5))/(64*xi_3 - 64);
  264 => (1/64)*(-30*std::pow(xi_2 + xi_3 - 1, 2)*(8*xi_1 + 4*xi_2 + 4*xi_3 - 4) + 280*std::pow(2*xi_1 + xi_2 + xi_3 - 1, 3))*(972*xi_2*std::pow(xi_3 - 1, 5) + 467*std::pow(xi_3 - 1, 6) - 1275*std::pow(xi_3 - 1, 4)*std::pow(2*xi_2 + xi_3 - 1, 2) - 3060*std::pow(xi_3 - 1, 3)*std::pow(2*xi_2 + xi_3 - 1, 3) + 14535*std::pow(xi_3 - 1, 2)*std::pow(2*xi_2 + xi_3 - 1, 4) - 17442*(xi_3 - 1)*std::pow(2*xi_2 + xi_3 - 1, 5) + 6783*std::pow(2*xi_2 + xi_3 - 1, 6));
  265 => (1/128)*(-630*(-xi_2 - xi_3 + 1)*std::pow(-2*xi_1 - xi_2 - xi_3 + 1, 4) + 30*std::pow(xi_2 + xi_3 - 1, 5) - 420*std::pow(xi_2 + xi_3 - 1, 3)*std::pow(-2*xi_1 - xi_2 - xi_3 + 1, 2))*(3150*xi_3 + 13167*std::pow(2*xi_3 - 1, 5) + 35910*std::pow(2*xi_3 - 1, 4) + 34770*std::pow(2*xi_3 - 1, 3) + 13680*std::pow(2*xi_3 - 1, 2) - 1669)/(xi_2 + xi_3 - 1);
  266 => (1/128)*(13*xi_2 + xi_3 - 1)*(-630*(-xi_2 - xi_3 + 1)*std::pow(-2*xi_1 - xi_2 - xi_3 + 1, 4) + 30*std::pow(xi_2 + xi_3 - 1, 5) - 420*std::pow(xi_2 + xi_3 - 1, 3)*std::pow(-2*xi_1 - xi_2 - xi_3 + 1, 2))*(11704*xi_3 + 7315*std::pow(2*xi_3 - 1, 4) + 18620*std::pow(2*xi_3 - 1, 3) + 16530*std::pow(2*xi_3 - 1, 2) - 5209)/(xi_2 + xi_3 - 1);
  267 => -1/64*(308*xi_2*std::pow(xi_3 - 1, 2) + 101*std::pow(xi_3 - 1, 3) - 105*(xi_3 - 1)*std::pow(2*xi_2 + xi_3 - 1, 2))*(30*std::pow(xi_2 + xi_3 - 1, 5) - 420*std::pow(xi_2 + xi_3 - 1, 3)*std::pow(2*xi_1 + xi_2 + xi_3 - 1, 2) + 630*(xi_2 + xi_3 - 1)*std::pow(2*xi_1 + xi_2 + xi_3 - 1, 4))*(1170*xi_3 + 385*std::pow(2*xi_3 - 1, 3) + 840*std::pow(2*xi_3 - 1, 2) - 457)/((xi_3 - 1)*(xi_2 + xi_3 - 1));
  268 => (1/32)*(756*xi_3 + 231*std::pow(2*xi_3 - 1, 2) - 227)*(-630*(-xi_2 - xi_3 + 1)*std::pow(-2*xi_1 - xi_2 - xi_3 + 1, 4) + 30*std::pow(xi_2 + xi_3 - 1, 5) - 420*std::pow(xi_2 + xi_3 - 1, 3)*std::pow(-2*xi_1 - xi_2 - xi_3 + 1, 2))*(195*xi_2*std::pow(xi_3 - 1, 2) + 81*std::pow(xi_3 - 1, 3) - 165*(xi_3 - 1)*std::pow(-2*xi_2 - xi_3 + 1, 2) - 85*std::pow(-2*xi_2 - xi_3 + 1, 3))/(xi_2 + xi_3 - 1);
  269 => (1/32)*(22*xi_3 - 1)*(-630*(-xi_2 - xi_3 + 1)*std::pow(-2*xi_1 - xi_2 - xi_3 + 1, 4) + 30*std::pow(xi_2 + xi_3 - 1, 5) - 420*std::pow(xi_2 + xi_3 - 1, 3)*std::pow(-2*xi_1 - xi_2 - xi_3 + 1, 2))*(-968*xi_2*std::pow(xi_3 - 1, 3) - 455*std::pow(xi_3 - 1, 4) + 1734*std::pow(xi_3 - 1, 2)*std::pow(2*xi_2 + xi_3 - 1, 2) - 2244*(xi_3 - 1)*std::pow(2*xi_2 + xi_3 - 1, 3) + 969*std::pow(2*xi_2 + xi_3 - 1, 4))/(xi_2 + xi_3 - 1);
  270 => (1/256)*(30*std::pow(xi_2 + xi_3 - 1, 5) - 420*std::pow(xi_2 + xi_3 - 1, 3)*std::pow(2*xi_1 + xi_2 + xi_3 - 1, 2) + 630*(xi_2 + xi_3 - 1)*std::pow(2*xi_1 + xi_2 + xi_3 - 1, 4))*(2210*xi_2*std::pow(xi_3 - 1, 5) + 1358*std::pow(xi_3 - 1, 6) - 16830*std::pow(xi_3 - 1, 4)*std::pow(2*xi_2 + xi_3 - 1, 2) + 48450*std::pow(xi_3 - 1, 3)*std::pow(2*xi_2 + xi_3 - 1, 3) - 53295*std::pow(xi_3 - 1, 2)*std::pow(2*xi_2 + xi_3 - 1, 4) + 20349*(xi_3 - 1)*std::pow(2*xi_2 + xi_3 - 1, 5))/((xi_3 - 1)*(xi_2 + xi_3 - 1));
  271 => (1/256)*(105*std::pow(xi_2 + xi_3 - 1, 4)*(8*xi_1 + 4*xi_2 + 4*xi_3 - 4) - 2520*std::pow(xi_2 + xi_3 - 1, 2)*std::pow(2*xi_1 + xi_2 + xi_3 - 1, 3) + 2772*std::pow(2*xi_1 + xi_2 + xi_3 - 1, 5))*(11704*xi_3 + 7315*std::pow(2*xi_3 - 1, 4) + 18620*std::pow(2*xi_3 - 1, 3) + 16530*std::pow(2*xi_3 - 1, 2) - 5209);
  272 => (1/32)*(15*xi_2 + xi_3 - 1)*(105*std::pow(xi_2 + xi_3 - 1, 4)*(8*xi_1 + 4*xi_2 + 4*xi_3 - 4) - 2520*std::pow(xi_2 + xi_3 - 1, 2)*std::pow(2*xi_1 + xi_2 + xi_3 - 1, 3) + 2772*std::pow(2*xi_1 + xi_2 + xi_3 - 1, 5))*(1170*xi_3 + 385*std::pow(2*xi_3 - 1, 3) + 840*std::pow(2*xi_3 - 1, 2) - 457);
  273 => (756*xi_3 + 231*std::pow(2*xi_3 - 1, 2) - 227)*(104*xi_2*std::pow(xi_3 - 1, 2) + 33*std::pow(xi_3 - 1, 3) - 34*(xi_3 - 1)*std::pow(2*xi_2 + xi_3 - 1, 2))*(-105*std::pow(xi_2 + xi_3 - 1, 4)*(8*xi_1 + 4*xi_2 + 4*xi_3 - 4) + 2520*std::pow(xi_2 + xi_3 - 1, 2)*std::pow(2*xi_1 + xi_2 + xi_3 - 1, 3) - 2772*std::pow(2*xi_1 + xi_2 + xi_3 - 1, 5))/(64*xi_3 - 64);
  274 => (1/128)*(22*xi_3 - 1)*(105*std::pow(xi_2 + xi_3 - 1, 4)*(8*xi_1 + 4*xi_2 + 4*xi_3 - 4) - 2520*std::pow(xi_2 + xi_3 - 1, 2)*std::pow(2*xi_1 + xi_2 + xi_3 - 1, 3) + 2772*std::pow(2*xi_1 + xi_2 + xi_3 - 1, 5))*(2550*xi_2*std::pow(xi_3 - 1, 3) - 1989*std::pow(-xi_3 + 1, 2)*std::pow(-2*xi_2 - xi_3 + 1, 2) + 969*(-xi_3 + 1)*std::pow(-2*xi_2 - xi_3 + 1, 3) + 1028*std::pow(xi_3 - 1, 4))/(xi_3 - 1);
  275 => (1/256)*(105*std::pow(xi_2 + xi_3 - 1, 4)*(8*xi_1 + 4*xi_2 + 4*xi_3 - 4) - 2520*std::pow(xi_2 + xi_3 - 1, 2)*std::pow(2*xi_1 + xi_2 + xi_3 - 1, 3) + 2772*std::pow(2*xi_1 + xi_2 + xi_3 - 1, 5))*(-8424*xi_2*std::pow(xi_3 - 1, 3) - 3803*std::pow(xi_3 - 1, 4) + 12654*std::pow(xi_3 - 1, 2)*std::pow(2*xi_2 + xi_3 - 1, 2) - 14820*(xi_3 - 1)*std::pow(2*xi_2 + xi_3 - 1, 3) + 5985*std::pow(2*xi_2 + xi_3 - 1, 4));
  276 => -(1170*xi_3 + 385*std::pow(2*xi_3 - 1, 3) + 840*std::pow(2*xi_3 - 1, 2) - 457)*(70*std::pow(xi_2 + xi_3 - 1, 7) - 1890*std::pow(xi_2 + xi_3 - 1, 5)*std::pow(2*xi_1 + xi_2 + xi_3 - 1, 2) + 6930*std::pow(xi_2 + xi_3 - 1, 3)*std::pow(2*xi_1 + xi_2 + xi_3 - 1, 4) - 6006*(xi_2 + xi_3 - 1)*std::pow(2*xi_1 + xi_2 + xi_3 - 1, 6))/(32*xi_2 + 32*xi_3 - 32);
  277 => -(17*xi_2 + xi_3 - 1)*(756*xi_3 + 231*std::pow(2*xi_3 - 1, 2) - 227)*(70*std::pow(xi_2 + xi_3 - 1, 7) - 1890*std::pow(xi_2 + xi_3 - 1, 5)*std::pow(2*xi_1 + xi_2 + xi_3 - 1, 2) + 6930*std::pow(xi_2 + xi_3 - 1, 3)*std::pow(2*xi_1 + xi_2 + xi_3 - 1, 4) - 6006*(xi_2 + xi_3 - 1)*std::pow(2*xi_1 + xi_2 + xi_3 - 1, 6))/(64*xi_2 + 64*xi_3 - 64);
  278 => (1/64)*(22*xi_3 - 1)*(540*xi_2*std::pow(xi_3 - 1, 2) + 171*(-xi_3 + 1)*std::pow(-2*xi_2 - xi_3 + 1, 2) + 167*std::pow(xi_3 - 1, 3))*(1890*std::pow(-xi_2 - xi_3 + 1, 5)*std::pow(2*xi_1 + xi_2 + xi_3 - 1, 2) + 6006*(-xi_2 - xi_3 + 1)*std::pow(2*xi_1 + xi_2 + xi_3 - 1, 6) + 70*std::pow(xi_2 + xi_3 - 1, 7) + 6930*std::pow(xi_2 + xi_3 - 1, 3)*std::pow(2*xi_1 + xi_2 + xi_3 - 1, 4))/((xi_3 - 1)*(xi_2 + xi_3 - 1));
  279 => -(1938*xi_2*std::pow(xi_3 - 1, 2) + 764*std::pow(xi_3 - 1, 3) - 1425*(xi_3 - 1)*std::pow(2*xi_2 + xi_3 - 1, 2) + 665*std::pow(2*xi_2 + xi_3 - 1, 3))*(70*std::pow(xi_2 + xi_3 - 1, 7) - 1890*std::pow(xi_2 + xi_3 - 1, 5)*std::pow(2*xi_1 + xi_2 + xi_3 - 1, 2) + 6930*std::pow(xi_2 + xi_3 - 1, 3)*std::pow(2*xi_1 + xi_2 + xi_3 - 1, 4) - 6006*(xi_2 + xi_3 - 1)*std::pow(2*xi_1 + xi_2 + xi_3 - 1, 6))/(64*xi_2 + 64*xi_3 - 64);
  280 => (1/512)*(756*xi_3 + 231*std::pow(2*xi_3 - 1, 2) - 227)*(-1260*std::pow(xi_2 + xi_3 - 1, 6)*(8*xi_1 + 4*xi_2 + 4*xi_3 - 4) + 55440*std::pow(xi_2 + xi_3 - 1, 4)*std::pow(2*xi_1 + xi_2 + xi_3 - 1, 3) - 144144*std::pow(xi_2 + xi_3 - 1, 2)*std::pow(2*xi_1 + xi_2 + xi_3 - 1, 5) + 102960*std::pow(2*xi_1 + xi_2 + xi_3 - 1, 7));
  281 => (1/128)*(22*xi_3 - 1)*(19*xi_2 + xi_3 - 1)*(-1260*std::pow(xi_2 + xi_3 - 1, 6)*(8*xi_1 + 4*xi_2 + 4*xi_3 - 4) + 55440*std::pow(xi_2 + xi_3 - 1, 4)*std::pow(2*xi_1 + xi_2 + xi_3 - 1, 3) - 144144*std::pow(xi_2 + xi_3 - 1, 2)*std::pow(2*xi_1 + xi_2 + xi_3 - 1, 5) + 102960*std::pow(2*xi_1 + xi_2 + xi_3 - 1, 7));
  282 => -(340*xi_2*std::pow(xi_3 - 1, 2) + 103*std::pow(xi_3 - 1, 3) - 105*(xi_3 - 1)*std::pow(2*xi_2 + xi_3 - 1, 2))*(-1260*std::pow(xi_2 + xi_3 - 1, 6)*(8*xi_1 + 4*xi_2 + 4*xi_3 - 4) + 55440*std::pow(xi_2 + xi_3 - 1, 4)*std::pow(2*xi_1 + xi_2 + xi_3 - 1, 3) - 144144*std::pow(xi_2 + xi_3 - 1, 2)*std::pow(2*xi_1 + xi_2 + xi_3 - 1, 5) + 102960*std::pow(2*xi_1 + xi_2 + xi_3 - 1, 7))/(256*xi_3 - 256);
  283 => (1/128)*(22*xi_3 - 1)*(-180180*std::pow(-xi_2 - xi_3 + 1, 5)*std::pow(-2*xi_1 - xi_2 - xi_3 + 1, 4) - 218790*(-xi_2 - xi_3 + 1)*std::pow(-2*xi_1 - xi_2 - xi_3 + 1, 8) + 630*std::pow(xi_2 + xi_3 - 1, 9) - 27720*std::pow(xi_2 + xi_3 - 1, 7)*std::pow(-2*xi_1 - xi_2 - xi_3 + 1, 2) - 360360*std::pow(xi_2 + xi_3 - 1, 3)*std::pow(-2*xi_1 - xi_2 - xi_3 + 1, 6))/(xi_2 + xi_3 - 1);
  284 => (1/128)*(21*xi_2 + xi_3 - 1)*(-180180*std::pow(-xi_2 - xi_3 + 1, 5)*std::pow(-2*xi_1 - xi_2 - xi_3 + 1, 4) - 218790*(-xi_2 - xi_3 + 1)*std::pow(-2*xi_1 - xi_2 - xi_3 + 1, 8) + 630*std::pow(xi_2 + xi_3 - 1, 9) - 27720*std::pow(xi_2 + xi_3 - 1, 7)*std::pow(-2*xi_1 - xi_2 - xi_3 + 1, 2) - 360360*std::pow(xi_2 + xi_3 - 1, 3)*std::pow(-2*xi_1 - xi_2 - xi_3 + 1, 6))/(xi_2 + xi_3 - 1);
  285 => (3465/256)*std::pow(xi_2 + xi_3 - 1, 8)*(8*xi_1 + 4*xi_2 + 4*xi_3 - 4) - 15015/16*std::pow(xi_2 + xi_3 - 1, 6)*std::pow(2*xi_1 + xi_2 + xi_3 - 1, 3) + (135135/32)*std::pow(xi_2 + xi_3 - 1, 4)*std::pow(2*xi_1 + xi_2 + xi_3 - 1, 5) - 109395/16*std::pow(xi_2 + xi_3 - 1, 2)*std::pow(2*xi_1 + xi_2 + xi_3 - 1, 7) + (230945/64)*std::pow(2*xi_1 + xi_2 + xi_3 - 1, 9);
}

end Edge.Basis
