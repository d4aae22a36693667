import Verif.Basis.Expr
/-!
Text of the basis functions of tetrahedra.
-/
namespace Edge.Basis

/-- Basis of tetrahedra (src/dg/generated/basis_tet.inc:24-882): the right-hand sides for `b` = 0, ..., 285. Literals `n.0L` are written `n`. -/
def tetVal : List Ex := exs% {
  0 => 1;
  1 => 4*xi_3 - 1;
  2 => 3*xi_2 + xi_3 - 1;
  3 => 2*xi_1 + xi_2 + xi_3 - 1;
  4 => 15*std::pow(xi_3, 2) - 10*xi_3 + 1;
  5 => (6*xi_3 - 1)*(3*xi_2 + xi_3 - 1);
  6 => 10*std::pow(xi_2, 2) + 8*xi_2*xi_3 - 8*xi_2 + std::pow(xi_3, 2) - 2*xi_3 + 1;
  7 => (6*xi_3 - 1)*(2*xi_1 + xi_2 + xi_3 - 1);
  8 => (5*xi_2 + xi_3 - 1)*(2*xi_1 + xi_2 + xi_3 - 1);
  9 => -1/2*std::pow(xi_2 + xi_3 - 1, 2) + (3/2)*std::pow(2*xi_1 + xi_2 + xi_3 - 1, 2);
  10 => 56*std::pow(xi_3, 3) - 63*std::pow(xi_3, 2) + 18*xi_3 - 1;
  11 => (3*xi_2 + xi_3 - 1)*(14*xi_3 + 7*std::pow(2*xi_3 - 1, 2) - 6);
  12 => -(8*xi_3 - 1)*(4*xi_2*std::pow(xi_3 - 1, 2) + 3*std::pow(xi_3 - 1, 3) - 5*(xi_3 - 1)*std::pow(2*xi_2 + xi_3 - 1, 2))/(2*xi_3 - 2);
  13 => 35*std::pow(xi_2, 3) + 45*std::pow(xi_2, 2)*xi_3 - 45*std::pow(xi_2, 2) + 15*xi_2*std::pow(xi_3, 2) - 30*xi_2*xi_3 + 15*xi_2 + std::pow(xi_3, 3) - 3*std::pow(xi_3, 2) + 3*xi_3 - 1;
  14 => (14*xi_3 + 7*std::pow(2*xi_3 - 1, 2) - 6)*(2*xi_1 + xi_2 + xi_3 - 1);
  15 => (8*xi_3 - 1)*(5*xi_2 + xi_3 - 1)*(2*xi_1 + xi_2 + xi_3 - 1);
  16 => -(36*xi_2*std::pow(xi_3 - 1, 2) + 17*std::pow(xi_3 - 1, 3) - 21*(xi_3 - 1)*std::pow(2*xi_2 + xi_3 - 1, 2))*(2*xi_1 + xi_2 + xi_3 - 1)/(4*xi_3 - 4);
  17 => (1/2)*(8*xi_3 - 1)*(-std::pow(xi_2 + xi_3 - 1, 2) + 3*std::pow(2*xi_1 + xi_2 + xi_3 - 1, 2));
  18 => (1/2)*(-std::pow(xi_2 + xi_3 - 1, 2) + 3*std::pow(2*xi_1 + xi_2 + xi_3 - 1, 2))*(7*xi_2 + xi_3 - 1);
  19 => -(6*xi_1*std::pow(xi_2 + xi_3 - 1, 3) + 3*std::pow(xi_2 + xi_3 - 1, 4) - 5*(xi_2 + xi_3 - 1)*std::pow(2*xi_1 + xi_2 + xi_3 - 1, 3))/(2*xi_2 + 2*xi_3 - 2);
  20 => 210*std::pow(xi_3, 4) - 336*std::pow(xi_3, 3) + 168*std::pow(xi_3, 2) - 28*xi_3 + 1;
  21 => (3*xi_2 + xi_3 - 1)*(6*xi_3 + 15*std::pow(2*xi_3 - 1, 3) + 18*std::pow(2*xi_3 - 1, 2) - 4);
  22 => -(108*xi_3 + 45*std::pow(2*xi_3 - 1, 2) - 41)*(4*xi_2*std::pow(xi_3 - 1, 2) + 3*std::pow(xi_3 - 1, 3) - 5*(xi_3 - 1)*std::pow(2*xi_2 + xi_3 - 1, 2))/(8*xi_3 - 8);
  23 => -(10*xi_3 - 1)*(30*xi_2*std::pow(xi_3 - 1, 3) + 12*std::pow(xi_3 - 1, 4) + 15*std::pow(xi_3 - 1, 2)*std::pow(2*xi_2 + xi_3 - 1, 2) - 35*(xi_3 - 1)*std::pow(2*xi_2 + xi_3 - 1, 3))/(8*xi_3 - 8);
  24 => 3*xi_2*std::pow(xi_3 - 1, 3) + (15/8)*std::pow(xi_3 - 1, 4) - 21/4*std::pow(xi_3 - 1, 2)*std::pow(2*xi_2 + xi_3 - 1, 2) - 7/2*(xi_3 - 1)*std::pow(2*xi_2 + xi_3 - 1, 3) + (63/8)*std::pow(2*xi_2 + xi_3 - 1, 4);
  25 => (2*xi_1 + xi_2 + xi_3 - 1)*(6*xi_3 + 15*std::pow(2*xi_3 - 1, 3) + 18*std::pow(2*xi_3 - 1, 2) - 4);
  26 => (1/4)*(5*xi_2 + xi_3 - 1)*(108*xi_3 + 45*std::pow(2*xi_3 - 1, 2) - 41)*(2*xi_1 + xi_2 + xi_3 - 1);
  27 => -(10*xi_3 - 1)*(36*xi_2*std::pow(xi_3 - 1, 2) + 17*std::pow(xi_3 - 1, 3) - 21*(xi_3 - 1)*std::pow(2*xi_2 + xi_3 - 1, 2))*(2*xi_1 + xi_2 + xi_3 - 1)/(4*xi_3 - 4);
  28 => (1/2)*(2*std::pow(xi_3 - 1, 3) - 21*(xi_3 - 1)*std::pow(2*xi_2 + xi_3 - 1, 2) + 21*std::pow(2*xi_2 + xi_3 - 1, 3))*(2*xi_1 + xi_2 + xi_3 - 1);
  29 => (1/8)*(-std::pow(xi_2 + xi_3 - 1, 2) + 3*std::pow(2*xi_1 + xi_2 + xi_3 - 1, 2))*(108*xi_3 + 45*std::pow(2*xi_3 - 1, 2) - 41);
  30 => (1/2)*(10*xi_3 - 1)*(-std::pow(xi_2 + xi_3 - 1, 2) + 3*std::pow(2*xi_1 + xi_2 + xi_3 - 1, 2))*(7*xi_2 + xi_3 - 1);
  31 => (std::pow(xi_2 + xi_3 - 1, 2) - 3*std::pow(2*xi_1 + xi_2 + xi_3 - 1, 2))*(20*xi_2*std::pow(xi_3 - 1, 2) + 8*std::pow(xi_3 - 1, 3) - 9*(xi_3 - 1)*std::pow(2*xi_2 + xi_3 - 1, 2))/(2*xi_3 - 2);
  32 => -(10*xi_3 - 1)*(6*xi_1*std::pow(xi_2 + xi_3 - 1, 3) + 3*std::pow(xi_2 + xi_3 - 1, 4) - 5*(xi_2 + xi_3 - 1)*std::pow(2*xi_1 + xi_2 + xi_3 - 1, 3))/(2*xi_2 + 2*xi_3 - 2);
  33 => (1/2)*(9*xi_2 + xi_3 - 1)*(6*xi_1*std::pow(xi_2 + xi_3 - 1, 3) + 5*(-xi_2 - xi_3 + 1)*std::pow(2*xi_1 + xi_2 + xi_3 - 1, 3) + 3*std::pow(xi_2 + xi_3 - 1, 4))/(-xi_2 - xi_3 + 1);
  34 => (3/8)*std::pow(xi_2 + xi_3 - 1, 4) - 15/4*std::pow(xi_2 + xi_3 - 1, 2)*std::pow(2*xi_1 + xi_2 + xi_3 - 1, 2) + (35/8)*std::pow(2*xi_1 + xi_2 + xi_3 - 1, 4);
  35 => 792*std::pow(xi_3, 5) - 1650*std::pow(xi_3, 4) + 1200*std::pow(xi_3, 3) - 360*std::pow(xi_3, 2) + 40*xi_3 - 1;
  36 => (1/16)*(3*xi_2 + xi_3 - 1)*(-216*xi_3 + 495*std::pow(2*xi_3 - 1, 4) + 660*std::pow(2*xi_3 - 1, 3) + 90*std::pow(2*xi_3 - 1, 2) + 91);
  37 => -(4*xi_2*std::pow(xi_3 - 1, 2) + 3*std::pow(xi_3 - 1, 3) - 5*(xi_3 - 1)*std::pow(2*xi_2 + xi_3 - 1, 2))*(120*xi_3 + 110*std::pow(2*xi_3 - 1, 3) + 165*std::pow(2*xi_3 - 1, 2) - 59)/(8*xi_3 - 8);
  38 => -(88*xi_3 + 33*std::pow(2*xi_3 - 1, 2) - 31)*(30*xi_2*std::pow(xi_3 - 1, 3) + 12*std::pow(xi_3 - 1, 4) + 15*std::pow(xi_3 - 1, 2)*std::pow(2*xi_2 + xi_3 - 1, 2) - 35*(xi_3 - 1)*std::pow(2*xi_2 + xi_3 - 1, 3))/(16*xi_3 - 16);
  39 => (1/8)*(12*xi_3 - 1)*(24*xi_2*std::pow(xi_3 - 1, 3) + 15*std::pow(xi_3 - 1, 4) - 42*std::pow(xi_3 - 1, 2)*std::pow(2*xi_2 + xi_3 - 1, 2) - 28*(xi_3 - 1)*std::pow(2*xi_2 + xi_3 - 1, 3) + 63*std::pow(2*xi_2 + xi_3 - 1, 4));
  40 => (1/16)*(70*xi_2*std::pow(xi_3 - 1, 5) - 105*std::pow(-xi_3 + 1, 2)*std::pow(-2*xi_2 - xi_3 + 1, 4) + 231*(-xi_3 + 1)*std::pow(-2*xi_2 - xi_3 + 1, 5) + 30*std::pow(xi_3 - 1, 6) + 70*std::pow(xi_3 - 1, 4)*std::pow(-2*xi_2 - xi_3 + 1, 2) + 210*std::pow(xi_3 - 1, 3)*std::pow(-2*xi_2 - xi_3 + 1, 3))/(xi_3 - 1);
  41 => (1/16)*(2*xi_1 + xi_2 + xi_3 - 1)*(-216*xi_3 + 495*std::pow(2*xi_3 - 1, 4) + 660*std::pow(2*xi_3 - 1, 3) + 90*std::pow(2*xi_3 - 1, 2) + 91);
  42 => (1/4)*(5*xi_2 + xi_3 - 1)*(2*xi_1 + xi_2 + xi_3 - 1)*(120*xi_3 + 110*std::pow(2*xi_3 - 1, 3) + 165*std::pow(2*xi_3 - 1, 2) - 59);
  43 => -(88*xi_3 + 33*std::pow(2*xi_3 - 1, 2) - 31)*(36*xi_2*std::pow(xi_3 - 1, 2) + 17*std::pow(xi_3 - 1, 3) - 21*(xi_3 - 1)*std::pow(2*xi_2 + xi_3 - 1, 2))*(2*xi_1 + xi_2 + xi_3 - 1)/(8*xi_3 - 8);
  44 => (1/2)*(12*xi_3 - 1)*(2*std::pow(xi_3 - 1, 3) - 21*(xi_3 - 1)*std::pow(2*xi_2 + xi_3 - 1, 2) + 21*std::pow(2*xi_2 + xi_3 - 1, 3))*(2*xi_1 + xi_2 + xi_3 - 1);
  45 => (1/8)*(2*xi_1 + xi_2 + xi_3 - 1)*(88*xi_2*std::pow(xi_3 - 1, 3) + 41*std::pow(xi_3 - 1, 4) - 18*std::pow(xi_3 - 1, 2)*std::pow(2*xi_2 + xi_3 - 1, 2) - 180*(xi_3 - 1)*std::pow(2*xi_2 + xi_3 - 1, 3) + 165*std::pow(2*xi_2 + xi_3 - 1, 4));
  46 => (1/8)*(-std::pow(xi_2 + xi_3 - 1, 2) + 3*std::pow(2*xi_1 + xi_2 + xi_3 - 1, 2))*(120*xi_3 + 110*std::pow(2*xi_3 - 1, 3) + 165*std::pow(2*xi_3 - 1, 2) - 59);
  47 => (1/4)*(-std::pow(xi_2 + xi_3 - 1, 2) + 3*std::pow(2*xi_1 + xi_2 + xi_3 - 1, 2))*(7*xi_2 + xi_3 - 1)*(88*xi_3 + 33*std::pow(2*xi_3 - 1, 2) - 31);
  48 => (12*xi_3 - 1)*(std::pow(xi_2 + xi_3 - 1, 2) - 3*std::pow(2*xi_1 + xi_2 + xi_3 - 1, 2))*(20*xi_2*std::pow(xi_3 - 1, 2) + 8*std::pow(xi_3 - 1, 3) - 9*(xi_3 - 1)*std::pow(2*xi_2 + xi_3 - 1, 2))/(2*xi_3 - 2);
  49 => (1/16)*(-std::pow(xi_2 + xi_3 - 1, 2) + 3*std::pow(2*xi_1 + xi_2 + xi_3 - 1, 2))*(126*xi_2*std::pow(xi_3 - 1, 3) - 225*std::pow(-xi_3 + 1, 2)*std::pow(-2*xi_2 - xi_3 + 1, 2) + 165*(-xi_3 + 1)*std::pow(-2*xi_2 - xi_3 + 1, 3) + 68*std::pow(xi_3 - 1, 4))/(xi_3 - 1);
  50 => -(88*xi_3 + 33*std::pow(2*xi_3 - 1, 2) - 31)*(6*xi_1*std::pow(xi_2 + xi_3 - 1, 3) + 3*std::pow(xi_2 + xi_3 - 1, 4) - 5*(xi_2 + xi_3 - 1)*std::pow(2*xi_1 + xi_2 + xi_3 - 1, 3))/(4*xi_2 + 4*xi_3 - 4);
  51 => (1/2)*(12*xi_3 - 1)*(9*xi_2 + xi_3 - 1)*(6*xi_1*std::pow(xi_2 + xi_3 - 1, 3) + 5*(-xi_2 - xi_3 + 1)*std::pow(2*xi_1 + xi_2 + xi_3 - 1, 3) + 3*std::pow(xi_2 + xi_3 - 1, 4))/(-xi_2 - xi_3 + 1);
  52 => (1/8)*(6*xi_1*std::pow(xi_2 + xi_3 - 1, 3) + 5*(-xi_2 - xi_3 + 1)*std::pow(2*xi_1 + xi_2 + xi_3 - 1, 3) + 3*std::pow(xi_2 + xi_3 - 1, 4))*(140*xi_2*std::pow(xi_3 - 1, 2) + 55*(-xi_3 + 1)*std::pow(-2*xi_2 - xi_3 + 1, 2) + 51*std::pow(xi_3 - 1, 3))/((xi_3 - 1)*(xi_2 + xi_3 - 1));
  53 => (1/8)*(12*xi_3 - 1)*(3*std::pow(xi_2 + xi_3 - 1, 4) - 30*std::pow(xi_2 + xi_3 - 1, 2)*std::pow(2*xi_1 + xi_2 + xi_3 - 1, 2) + 35*std::pow(2*xi_1 + xi_2 + xi_3 - 1, 4));
  54 => (1/8)*(11*xi_2 + xi_3 - 1)*(3*std::pow(xi_2 + xi_3 - 1, 4) - 30*std::pow(xi_2 + xi_3 - 1, 2)*std::pow(2*xi_1 + xi_2 + xi_3 - 1, 2) + 35*std::pow(2*xi_1 + xi_2 + xi_3 - 1, 4));
  55 => (1/8)*(30*xi_1*std::pow(xi_2 + xi_3 - 1, 5) + 63*(-xi_2 - xi_3 + 1)*std::pow(-2*xi_1 - xi_2 - xi_3 + 1, 5) + 15*std::pow(xi_2 + xi_3 - 1, 6) + 70*std::pow(xi_2 + xi_3 - 1, 3)*std::pow(-2*xi_1 - xi_2 - xi_3 + 1, 3))/(xi_2 + xi_3 - 1);
  56 => 3003*std::pow(xi_3, 6) - 7722*std::pow(xi_3, 5) + 7425*std::pow(xi_3, 4) - 3300*std::pow(xi_3, 3) + 675*std::pow(xi_3, 2) - 54*xi_3 + 1;
  57 => (1/16)*(3*xi_2 + xi_3 - 1)*(-190*xi_3 + 1001*std::pow(2*xi_3 - 1, 5) + 1430*std::pow(2*xi_3 - 1, 4) + 110*std::pow(2*xi_3 - 1, 3) - 440*std::pow(2*xi_3 - 1, 2) + 105);
  58 => -(4*xi_2*std::pow(xi_3 - 1, 2) + 3*std::pow(xi_3 - 1, 3) - 5*(xi_3 - 1)*std::pow(2*xi_2 + xi_3 - 1, 2))*(-88*xi_3 + 1001*std::pow(2*xi_3 - 1, 4) + 1716*std::pow(2*xi_3 - 1, 3) + 726*std::pow(2*xi_3 - 1, 2) + 5)/(32*xi_3 - 32);
  59 => -(150*xi_3 + 91*std::pow(2*xi_3 - 1, 3) + 156*std::pow(2*xi_3 - 1, 2) - 67)*(30*xi_2*std::pow(xi_3 - 1, 3) + 12*std::pow(xi_3 - 1, 4) + 15*std::pow(xi_3 - 1, 2)*std::pow(2*xi_2 + xi_3 - 1, 2) - 35*(xi_3 - 1)*std::pow(2*xi_2 + xi_3 - 1, 3))/(16*xi_3 - 16);
  60 => (1/32)*(260*xi_3 + 91*std::pow(2*xi_3 - 1, 2) - 87)*(24*xi_2*std::pow(xi_3 - 1, 3) + 15*std::pow(xi_3 - 1, 4) - 42*std::pow(xi_3 - 1, 2)*std::pow(2*xi_2 + xi_3 - 1, 2) - 28*(xi_3 - 1)*std::pow(2*xi_2 + xi_3 - 1, 3) + 63*std::pow(2*xi_2 + xi_3 - 1, 4));
  61 => (1/16)*(14*xi_3 - 1)*(70*xi_2*std::pow(xi_3 - 1, 5) - 105*std::pow(-xi_3 + 1, 2)*std::pow(-2*xi_2 - xi_3 + 1, 4) + 231*(-xi_3 + 1)*std::pow(-2*xi_2 - xi_3 + 1, 5) + 30*std::pow(xi_3 - 1, 6) + 70*std::pow(xi_3 - 1, 4)*std::pow(-2*xi_2 - xi_3 + 1, 2) + 210*std::pow(xi_3 - 1, 3)*std::pow(-2*xi_2 - xi_3 + 1, 3))/(xi_3 - 1);
  62 => (1/16)*(-60*xi_2*std::pow(xi_3 - 1, 6) - 135*std::pow(-xi_3 + 1, 5)*std::pow(-2*xi_2 - xi_3 + 1, 2) + 198*std::pow(-xi_3 + 1, 2)*std::pow(-2*xi_2 - xi_3 + 1, 5) - 429*(-xi_3 + 1)*std::pow(-2*xi_2 - xi_3 + 1, 6) - 35*std::pow(xi_3 - 1, 7) - 180*std::pow(xi_3 - 1, 4)*std::pow(-2*xi_2 - xi_3 + 1, 3) - 495*std::pow(xi_3 - 1, 3)*std::pow(-2*xi_2 - xi_3 + 1, 4))/(xi_3 - 1);
  63 => (1/16)*(2*xi_1 + xi_2 + xi_3 - 1)*(-190*xi_3 + 1001*std::pow(2*xi_3 - 1, 5) + 1430*std::pow(2*xi_3 - 1, 4) + 110*std::pow(2*xi_3 - 1, 3) - 440*std::pow(2*xi_3 - 1, 2) + 105);
  64 => (1/16)*(5*xi_2 + xi_3 - 1)*(2*xi_1 + xi_2 + xi_3 - 1)*(-88*xi_3 + 1001*std::pow(2*xi_3 - 1, 4) + 1716*std::pow(2*xi_3 - 1, 3) + 726*std::pow(2*xi_3 - 1, 2) + 5);
  65 => -(36*xi_2*std::pow(xi_3 - 1, 2) + 17*std::pow(xi_3 - 1, 3) - 21*(xi_3 - 1)*std::pow(2*xi_2 + xi_3 - 1, 2))*(2*xi_1 + xi_2 + xi_3 - 1)*(150*xi_3 + 91*std::pow(2*xi_3 - 1, 3) + 156*std::pow(2*xi_3 - 1, 2) - 67)/(8*xi_3 - 8);
  66 => (1/8)*(260*xi_3 + 91*std::pow(2*xi_3 - 1, 2) - 87)*(2*std::pow(xi_3 - 1, 3) - 21*(xi_3 - 1)*std::pow(2*xi_2 + xi_3 - 1, 2) + 21*std::pow(2*xi_2 + xi_3 - 1, 3))*(2*xi_1 + xi_2 + xi_3 - 1);
  67 => (1/8)*(14*xi_3 - 1)*(2*xi_1 + xi_2 + xi_3 - 1)*(88*xi_2*std::pow(xi_3 - 1, 3) + 41*std::pow(xi_3 - 1, 4) - 18*std::pow(xi_3 - 1, 2)*std::pow(2*xi_2 + xi_3 - 1, 2) - 180*(xi_3 - 1)*std::pow(2*xi_2 + xi_3 - 1, 3) + 165*std::pow(2*xi_2 + xi_3 - 1, 4));
  68 => (1/32)*(2*xi_1 + xi_2 + xi_3 - 1)*(-90*xi_2*std::pow(xi_3 - 1, 5) - 70*std::pow(-xi_3 + 1, 6) - 1485*std::pow(-xi_3 + 1, 2)*std::pow(-2*xi_2 - xi_3 + 1, 4) + 1287*(-xi_3 + 1)*std::pow(-2*xi_2 - xi_3 + 1, 5) + 630*std::pow(xi_3 - 1, 4)*std::pow(-2*xi_2 - xi_3 + 1, 2) + 330*std::pow(xi_3 - 1, 3)*std::pow(-2*xi_2 - xi_3 + 1, 3))/(xi_3 - 1);
  69 => (1/32)*(-std::pow(xi_2 + xi_3 - 1, 2) + 3*std::pow(2*xi_1 + xi_2 + xi_3 - 1, 2))*(-88*xi_3 + 1001*std::pow(2*xi_3 - 1, 4) + 1716*std::pow(2*xi_3 - 1, 3) + 726*std::pow(2*xi_3 - 1, 2) + 5);
  70 => (1/4)*(-std::pow(xi_2 + xi_3 - 1, 2) + 3*std::pow(2*xi_1 + xi_2 + xi_3 - 1, 2))*(7*xi_2 + xi_3 - 1)*(150*xi_3 + 91*std::pow(2*xi_3 - 1, 3) + 156*std::pow(2*xi_3 - 1, 2) - 67);
  71 => (std::pow(xi_2 + xi_3 - 1, 2) - 3*std::pow(2*xi_1 + xi_2 + xi_3 - 1, 2))*(260*xi_3 + 91*std::pow(2*xi_3 - 1, 2) - 87)*(20*xi_2*std::pow(xi_3 - 1, 2) + 8*std::pow(xi_3 - 1, 3) - 9*(xi_3 - 1)*std::pow(2*xi_2 + xi_3 - 1, 2))/(8*xi_3 - 8);
  72 => (1/16)*(14*xi_3 - 1)*(-std::pow(xi_2 + xi_3 - 1, 2) + 3*std::pow(2*xi_1 + xi_2 + xi_3 - 1, 2))*(126*xi_2*std::pow(xi_3 - 1, 3) - 225*std::pow(-xi_3 + 1, 2)*std::pow(-2*xi_2 - xi_3 + 1, 2) + 165*(-xi_3 + 1)*std::pow(-2*xi_2 - xi_3 + 1, 3) + 68*std::pow(xi_3 - 1, 4))/(xi_3 - 1);
  73 => (1/32)*(-std::pow(xi_2 + xi_3 - 1, 2) + 3*std::pow(2*xi_1 + xi_2 + xi_3 - 1, 2))*(200*xi_2*std::pow(xi_3 - 1, 3) + 71*std::pow(xi_3 - 1, 4) + 330*std::pow(xi_3 - 1, 2)*std::pow(2*xi_2 + xi_3 - 1, 2) - 1100*(xi_3 - 1)*std::pow(2*xi_2 + xi_3 - 1, 3) + 715*std::pow(2*xi_2 + xi_3 - 1, 4));
  74 => -(6*xi_1*std::pow(xi_2 + xi_3 - 1, 3) + 3*std::pow(xi_2 + xi_3 - 1, 4) - 5*(xi_2 + xi_3 - 1)*std::pow(2*xi_1 + xi_2 + xi_3 - 1, 3))*(150*xi_3 + 91*std::pow(2*xi_3 - 1, 3) + 156*std::pow(2*xi_3 - 1, 2) - 67)/(4*xi_2 + 4*xi_3 - 4);
  75 => (1/8)*(9*xi_2 + xi_3 - 1)*(260*xi_3 + 91*std::pow(2*xi_3 - 1, 2) - 87)*(6*xi_1*std::pow(xi_2 + xi_3 - 1, 3) + 5*(-xi_2 - xi_3 + 1)*std::pow(2*xi_1 + xi_2 + xi_3 - 1, 3) + 3*std::pow(xi_2 + xi_3 - 1, 4))/(-xi_2 - xi_3 + 1);
  76 => (1/8)*(14*xi_3 - 1)*(6*xi_1*std::pow(xi_2 + xi_3 - 1, 3) + 5*(-xi_2 - xi_3 + 1)*std::pow(2*xi_1 + xi_2 + xi_3 - 1, 3) + 3*std::pow(xi_2 + xi_3 - 1, 4))*(140*xi_2*std::pow(xi_3 - 1, 2) + 55*(-xi_3 + 1)*std::pow(-2*xi_2 - xi_3 + 1, 2) + 51*std::pow(xi_3 - 1, 3))/((xi_3 - 1)*(xi_2 + xi_3 - 1));
  77 => -(6*xi_1*std::pow(xi_2 + xi_3 - 1, 3) + 3*std::pow(xi_2 + xi_3 - 1, 4) - 5*(xi_2 + xi_3 - 1)*std::pow(2*xi_1 + xi_2 + xi_3 - 1, 3))*(198*xi_2*std::pow(xi_3 - 1, 2) + 92*std::pow(xi_3 - 1, 3) - 231*(xi_3 - 1)*std::pow(2*xi_2 + xi_3 - 1, 2) + 143*std::pow(2*xi_2 + xi_3 - 1, 3))/(8*xi_2 + 8*xi_3 - 8);
  78 => (1/32)*(260*xi_3 + 91*std::pow(2*xi_3 - 1, 2) - 87)*(3*std::pow(xi_2 + xi_3 - 1, 4) - 30*std::pow(xi_2 + xi_3 - 1, 2)*std::pow(2*xi_1 + xi_2 + xi_3 - 1, 2) + 35*std::pow(2*xi_1 + xi_2 + xi_3 - 1, 4));
  79 => (1/8)*(14*xi_3 - 1)*(11*xi_2 + xi_3 - 1)*(3*std::pow(xi_2 + xi_3 - 1, 4) - 30*std::pow(xi_2 + xi_3 - 1, 2)*std::pow(2*xi_1 + xi_2 + xi_3 - 1, 2) + 35*std::pow(2*xi_1 + xi_2 + xi_3 - 1, 4));
  80 => -(108*xi_2*std::pow(xi_3 - 1, 2) + 37*std::pow(xi_3 - 1, 3) - 39*(xi_3 - 1)*std::pow(2*xi_2 + xi_3 - 1, 2))*(3*std::pow(xi_2 + xi_3 - 1, 4) - 30*std::pow(xi_2 + xi_3 - 1, 2)*std::pow(2*xi_1 + xi_2 + xi_3 - 1, 2) + 35*std::pow(2*xi_1 + xi_2 + xi_3 - 1, 4))/(16*xi_3 - 16);
  81 => (1/8)*(14*xi_3 - 1)*(30*xi_1*std::pow(xi_2 + xi_3 - 1, 5) + 63*(-xi_2 - xi_3 + 1)*std::pow(-2*xi_1 - xi_2 - xi_3 + 1, 5) + 15*std::pow(xi_2 + xi_3 - 1, 6) + 70*std::pow(xi_2 + xi_3 - 1, 3)*std::pow(-2*xi_1 - xi_2 - xi_3 + 1, 3))/(xi_2 + xi_3 - 1);
  82 => (1/8)*(13*xi_2 + xi_3 - 1)*(30*xi_1*std::pow(xi_2 + xi_3 - 1, 5) + 63*(-xi_2 - xi_3 + 1)*std::pow(-2*xi_1 - xi_2 - xi_3 + 1, 5) + 15*std::pow(xi_2 + xi_3 - 1, 6) + 70*std::pow(xi_2 + xi_3 - 1, 3)*std::pow(-2*xi_1 - xi_2 - xi_3 + 1, 3))/(xi_2 + xi_3 - 1);
  83 => -5/16*std::pow(xi_2 + xi_3 - 1, 6) + (105/16)*std::pow(xi_2 + xi_3 - 1, 4)*std::pow(2*xi_1 + xi_2 + xi_3 - 1, 2) - 315/16*std::pow(xi_2 + xi_3 - 1, 2)*std::pow(2*xi_1 + xi_2 + xi_3 - 1, 4) + (231/16)*std::pow(2*xi_1 + xi_2 + xi_3 - 1, 6);
  84 => 11440*std::pow(xi_3, 7) - 35035*std::pow(xi_3, 6) + 42042*std::pow(xi_3, 5) - 25025*std::pow(xi_3, 4) + 7700*std::pow(xi_3, 3) - 1155*std::pow(xi_3, 2) + 70*xi_3 - 1;
  85 => (1/16)*(3*xi_2 + xi_3 - 1)*(198*xi_3 + 2002*std::pow(2*xi_3 - 1, 6) + 3003*std::pow(2*xi_3 - 1, 5) - 1430*std::pow(2*xi_3 - 1, 3) - 330*std::pow(2*xi_3 - 1, 2) - 83);
  86 => -(4*xi_2*std::pow(xi_3 - 1, 2) + 3*std::pow(xi_3 - 1, 3) - 5*(xi_3 - 1)*std::pow(2*xi_2 + xi_3 - 1, 2))*(-600*xi_3 + 2184*std::pow(2*xi_3 - 1, 5) + 4095*std::pow(2*xi_3 - 1, 4) + 1820*std::pow(2*xi_3 - 1, 3) - 390*std::pow(2*xi_3 - 1, 2) + 283)/(32*xi_3 - 32);
  87 => -(30*xi_2*std::pow(xi_3 - 1, 3) + 12*std::pow(xi_3 - 1, 4) + 15*std::pow(xi_3 - 1, 2)*std::pow(2*xi_2 + xi_3 - 1, 2) - 35*(xi_3 - 1)*std::pow(2*xi_2 + xi_3 - 1, 3))*(156*xi_3 + 455*std::pow(2*xi_3 - 1, 4) + 910*std::pow(2*xi_3 - 1, 3) + 546*std::pow(2*xi_3 - 1, 2) - 87)/(32*xi_3 - 32);
  88 => (1/32)*(588*xi_3 + 280*std::pow(2*xi_3 - 1, 3) + 525*std::pow(2*xi_3 - 1, 2) - 249)*(24*xi_2*std::pow(xi_3 - 1, 3) + 15*std::pow(xi_3 - 1, 4) - 42*std::pow(xi_3 - 1, 2)*std::pow(2*xi_2 + xi_3 - 1, 2) - 28*(xi_3 - 1)*std::pow(2*xi_2 + xi_3 - 1, 3) + 63*std::pow(2*xi_2 + xi_3 - 1, 4));
  89 => (1/16)*(90*xi_3 + 30*std::pow(2*xi_3 - 1, 2) - 29)*(70*xi_2*std::pow(xi_3 - 1, 5) - 105*std::pow(-xi_3 + 1, 2)*std::pow(-2*xi_2 - xi_3 + 1, 4) + 231*(-xi_3 + 1)*std::pow(-2*xi_2 - xi_3 + 1, 5) + 30*std::pow(xi_3 - 1, 6) + 70*std::pow(xi_3 - 1, 4)*std::pow(-2*xi_2 - xi_3 + 1, 2) + 210*std::pow(xi_3 - 1, 3)*std::pow(-2*xi_2 - xi_3 + 1, 3))/(xi_3 - 1);
  90 => -(16*xi_3 - 1)*(60*xi_2*std::pow(xi_3 - 1, 6) + 35*std::pow(xi_3 - 1, 7) - 135*std::pow(xi_3 - 1, 5)*std::pow(2*xi_2 + xi_3 - 1, 2) - 180*std::pow(xi_3 - 1, 4)*std::pow(2*xi_2 + xi_3 - 1, 3) + 495*std::pow(xi_3 - 1, 3)*std::pow(2*xi_2 + xi_3 - 1, 4) + 198*std::pow(xi_3 - 1, 2)*std::pow(2*xi_2 + xi_3 - 1, 5) - 429*(xi_3 - 1)*std::pow(2*xi_2 + xi_3 - 1, 6))/(16*xi_3 - 16);
  91 => (1/128)*(-630*xi_2*std::pow(xi_3 - 1, 7) - 3465*std::pow(-xi_3 + 1, 5)*std::pow(2*xi_2 + xi_3 - 1, 3) + 3465*std::pow(-xi_3 + 1, 4)*std::pow(2*xi_2 + xi_3 - 1, 4) - 6435*(-xi_3 + 1)*std::pow(2*xi_2 + xi_3 - 1, 7) - 280*std::pow(xi_3 - 1, 8) - 945*std::pow(xi_3 - 1, 6)*std::pow(2*xi_2 + xi_3 - 1, 2) - 9009*std::pow(xi_3 - 1, 3)*std::pow(2*xi_2 + xi_3 - 1, 5) - 3003*std::pow(xi_3 - 1, 2)*std::pow(2*xi_2 + xi_3 - 1, 6))/(xi_3 - 1);
  92 => (1/16)*(2*xi_1 + xi_2 + xi_3 - 1)*(198*xi_3 + 2002*std::pow(2*xi_3 - 1, 6) + 3003*std::pow(2*xi_3 - 1, 5) - 1430*std::pow(2*xi_3 - 1, 3) - 330*std::pow(2*xi_3 - 1, 2) - 83);
  93 => (1/16)*(5*xi_2 + xi_3 - 1)*(2*xi_1 + xi_2 + xi_3 - 1)*(-600*xi_3 + 2184*std::pow(2*xi_3 - 1, 5) + 4095*std::pow(2*xi_3 - 1, 4) + 1820*std::pow(2*xi_3 - 1, 3) - 390*std::pow(2*xi_3 - 1, 2) + 283);
  94 => -(36*xi_2*std::pow(xi_3 - 1, 2) + 17*std::pow(xi_3 - 1, 3) - 21*(xi_3 - 1)*std::pow(2*xi_2 + xi_3 - 1, 2))*(2*xi_1 + xi_2 + xi_3 - 1)*(156*xi_3 + 455*std::pow(2*xi_3 - 1, 4) + 910*std::pow(2*xi_3 - 1, 3) + 546*std::pow(2*xi_3 - 1, 2) - 87)/(16*xi_3 - 16);
  95 => (1/8)*(2*std::pow(xi_3 - 1, 3) - 21*(xi_3 - 1)*std::pow(2*xi_2 + xi_3 - 1, 2) + 21*std::pow(2*xi_2 + xi_3 - 1, 3))*(2*xi_1 + xi_2 + xi_3 - 1)*(588*xi_3 + 280*std::pow(2*xi_3 - 1, 3) + 525*std::pow(2*xi_3 - 1, 2) - 249);
  96 => (1/8)*(90*xi_3 + 30*std::pow(2*xi_3 - 1, 2) - 29)*(2*xi_1 + xi_2 + xi_3 - 1)*(88*xi_2*std::pow(xi_3 - 1, 3) + 41*std::pow(xi_3 - 1, 4) - 18*std::pow(xi_3 - 1, 2)*std::pow(2*xi_2 + xi_3 - 1, 2) - 180*(xi_3 - 1)*std::pow(2*xi_2 + xi_3 - 1, 3) + 165*std::pow(2*xi_2 + xi_3 - 1, 4));
  97 => (1/32)*(16*xi_3 - 1)*(2*xi_1 + xi_2 + xi_3 - 1)*(-90*xi_2*std::pow(xi_3 - 1, 5) - 70*std::pow(-xi_3 + 1, 6) - 1485*std::pow(-xi_3 + 1, 2)*std::pow(-2*xi_2 - xi_3 + 1, 4) + 1287*(-xi_3 + 1)*std::pow(-2*xi_2 - xi_3 + 1, 5) + 630*std::pow(xi_3 - 1, 4)*std::pow(-2*xi_2 - xi_3 + 1, 2) + 330*std::pow(xi_3 - 1, 3)*std::pow(-2*xi_2 - xi_3 + 1, 3))/(xi_3 - 1);
  98 => -(2*xi_1 + xi_2 + xi_3 - 1)*(780*xi_2*std::pow(xi_3 - 1, 6) + 365*std::pow(xi_3 - 1, 7) + 165*std::pow(xi_3 - 1, 5)*std::pow(2*xi_2 + xi_3 - 1, 2) - 3740*std::pow(xi_3 - 1, 4)*std::pow(2*xi_2 + xi_3 - 1, 3) + 2145*std::pow(xi_3 - 1, 3)*std::pow(2*xi_2 + xi_3 - 1, 4) + 6006*std::pow(xi_3 - 1, 2)*std::pow(2*xi_2 + xi_3 - 1, 5) - 5005*(xi_3 - 1)*std::pow(2*xi_2 + xi_3 - 1, 6))/(64*xi_3 - 64);
  99 => (1/32)*(-std::pow(xi_2 + xi_3 - 1, 2) + 3*std::pow(2*xi_1 + xi_2 + xi_3 - 1, 2))*(-600*xi_3 + 2184*std::pow(2*xi_3 - 1, 5) + 4095*std::pow(2*xi_3 - 1, 4) + 1820*std::pow(2*xi_3 - 1, 3) - 390*std::pow(2*xi_3 - 1, 2) + 283);
  100 => (1/8)*(-std::pow(xi_2 + xi_3 - 1, 2) + 3*std::pow(2*xi_1 + xi_2 + xi_3 - 1, 2))*(7*xi_2 + xi_3 - 1)*(156*xi_3 + 455*std::pow(2*xi_3 - 1, 4) + 910*std::pow(2*xi_3 - 1, 3) + 546*std::pow(2*xi_3 - 1, 2) - 87);
  101 => (std::pow(xi_2 + xi_3 - 1, 2) - 3*std::pow(2*xi_1 + xi_2 + xi_3 - 1, 2))*(20*xi_2*std::pow(xi_3 - 1, 2) + 8*std::pow(xi_3 - 1, 3) - 9*(xi_3 - 1)*std::pow(2*xi_2 + xi_3 - 1, 2))*(588*xi_3 + 280*std::pow(2*xi_3 - 1, 3) + 525*std::pow(2*xi_3 - 1, 2) - 249)/(8*xi_3 - 8);
  102 => (1/16)*(-std::pow(xi_2 + xi_3 - 1, 2) + 3*std::pow(2*xi_1 + xi_2 + xi_3 - 1, 2))*(90*xi_3 + 30*std::pow(2*xi_3 - 1, 2) - 29)*(126*xi_2*std::pow(xi_3 - 1, 3) - 225*std::pow(-xi_3 + 1, 2)*std::pow(-2*xi_2 - xi_3 + 1, 2) + 165*(-xi_3 + 1)*std::pow(-2*xi_2 - xi_3 + 1, 3) + 68*std::pow(xi_3 - 1, 4))/(xi_3 - 1);
  103 => (1/32)*(16*xi_3 - 1)*(-std::pow(xi_2 + xi_3 - 1, 2) + 3*std::pow(2*xi_1 + xi_2 + xi_3 - 1, 2))*(200*xi_2*std::pow(xi_3 - 1, 3) + 71*std::pow(xi_3 - 1, 4) + 330*std::pow(xi_3 - 1, 2)*std::pow(2*xi_2 + xi_3 - 1, 2) - 1100*(xi_3 - 1)*std::pow(2*xi_2 + xi_3 - 1, 3) + 715*std::pow(2*xi_2 + xi_3 - 1, 4));
  104 => (std::pow(xi_2 + xi_3 - 1, 2) - 3*std::pow(2*xi_1 + xi_2 + xi_3 - 1, 2))*(770*xi_2*std::pow(xi_3 - 1, 5) + 386*std::pow(xi_3 - 1, 6) - 990*std::pow(xi_3 - 1, 4)*std::pow(2*xi_2 + xi_3 - 1, 2) - 1430*std::pow(xi_3 - 1, 3)*std::pow(2*xi_2 + xi_3 - 1, 3) + 5005*std::pow(xi_3 - 1, 2)*std::pow(2*xi_2 + xi_3 - 1, 4) - 3003*(xi_3 - 1)*std::pow(2*xi_2 + xi_3 - 1, 5))/(64*xi_3 - 64);
  105 => -(6*xi_1*std::pow(xi_2 + xi_3 - 1, 3) + 3*std::pow(xi_2 + xi_3 - 1, 4) - 5*(xi_2 + xi_3 - 1)*std::pow(2*xi_1 + xi_2 + xi_3 - 1, 3))*(156*xi_3 + 455*std::pow(2*xi_3 - 1, 4) + 910*std::pow(2*xi_3 - 1, 3) + 546*std::pow(2*xi_3 - 1, 2) - 87)/(8*xi_2 + 8*xi_3 - 8);
  106 => (1/8)*(9*xi_2 + xi_3 - 1)*(6*xi_1*std::pow(xi_2 + xi_3 - 1, 3) + 5*(-xi_2 - xi_3 + 1)*std::pow(2*xi_1 + xi_2 + xi_3 - 1, 3) + 3*std::pow(xi_2 + xi_3 - 1, 4))*(588*xi_3 + 280*std::pow(2*xi_3 - 1, 3) + 525*std::pow(2*xi_3 - 1, 2) - 249)/(-xi_2 - xi_3 + 1);
  107 => (1/8)*(90*xi_3 + 30*std::pow(2*xi_3 - 1, 2) - 29)*(6*xi_1*std::pow(xi_2 + xi_3 - 1, 3) + 5*(-xi_2 - xi_3 + 1)*std::pow(2*xi_1 + xi_2 + xi_3 - 1, 3) + 3*std::pow(xi_2 + xi_3 - 1, 4))*(140*xi_2*std::pow(xi_3 - 1, 2) + 55*(-xi_3 + 1)*std::pow(-2*xi_2 - xi_3 + 1, 2) + 51*std::pow(xi_3 - 1, 3))/((xi_3 - 1)*(xi_2 + xi_3 - 1));
  108 => -(16*xi_3 - 1)*(6*xi_1*std::pow(xi_2 + xi_3 - 1, 3) + 3*std::pow(xi_2 + xi_3 - 1, 4) - 5*(xi_2 + xi_3 - 1)*std::pow(2*xi_1 + xi_2 + xi_3 - 1, 3))*(198*xi_2*std::pow(xi_3 - 1, 2) + 92*std::pow(xi_3 - 1, 3) - 231*(xi_3 - 1)*std::pow(2*xi_2 + xi_3 - 1, 2) + 143*std::pow(2*xi_2 + xi_3 - 1, 3))/(8*xi_2 + 8*xi_3 - 8);
  109 => (6*xi_1*std::pow(xi_2 + xi_3 - 1, 3) + 3*std::pow(xi_2 + xi_3 - 1, 4) - 5*(xi_2 + xi_3 - 1)*std::pow(2*xi_1 + xi_2 + xi_3 - 1, 3))*(168*xi_2*std::pow(xi_3 - 1, 3) + 127*std::pow(xi_3 - 1, 4) - 1326*std::pow(xi_3 - 1, 2)*std::pow(2*xi_2 + xi_3 - 1, 2) + 2548*(xi_3 - 1)*std::pow(2*xi_2 + xi_3 - 1, 3) - 1365*std::pow(2*xi_2 + xi_3 - 1, 4))/(32*xi_2 + 32*xi_3 - 32);
  110 => (1/32)*(3*std::pow(xi_2 + xi_3 - 1, 4) - 30*std::pow(xi_2 + xi_3 - 1, 2)*std::pow(2*xi_1 + xi_2 + xi_3 - 1, 2) + 35*std::pow(2*xi_1 + xi_2 + xi_3 - 1, 4))*(588*xi_3 + 280*std::pow(2*xi_3 - 1, 3) + 525*std::pow(2*xi_3 - 1, 2) - 249);
  111 => (1/8)*(11*xi_2 + xi_3 - 1)*(90*xi_3 + 30*std::pow(2*xi_3 - 1, 2) - 29)*(3*std::pow(xi_2 + xi_3 - 1, 4) - 30*std::pow(xi_2 + xi_3 - 1, 2)*std::pow(2*xi_1 + xi_2 + xi_3 - 1, 2) + 35*std::pow(2*xi_1 + xi_2 + xi_3 - 1, 4));
  112 => -(16*xi_3 - 1)*(108*xi_2*std::pow(xi_3 - 1, 2) + 37*std::pow(xi_3 - 1, 3) - 39*(xi_3 - 1)*std::pow(2*xi_2 + xi_3 - 1, 2))*(3*std::pow(xi_2 + xi_3 - 1, 4) - 30*std::pow(xi_2 + xi_3 - 1, 2)*std::pow(2*xi_1 + xi_2 + xi_3 - 1, 2) + 35*std::pow(2*xi_1 + xi_2 + xi_3 - 1, 4))/(16*xi_3 - 16);
  113 => (1/64)*(3*std::pow(xi_2 + xi_3 - 1, 4) - 30*std::pow(xi_2 + xi_3 - 1, 2)*std::pow(2*xi_1 + xi_2 + xi_3 - 1, 2) + 35*std::pow(2*xi_1 + xi_2 + xi_3 - 1, 4))*(858*xi_2*std::pow(xi_3 - 1, 3) - 819*std::pow(-xi_3 + 1, 2)*std::pow(-2*xi_2 - xi_3 + 1, 2) + 455*(-xi_3 + 1)*std::pow(-2*xi_2 - xi_3 + 1, 3) + 372*std::pow(xi_3 - 1, 4))/(xi_3 - 1);
  114 => (1/8)*(90*xi_3 + 30*std::pow(2*xi_3 - 1, 2) - 29)*(30*xi_1*std::pow(xi_2 + xi_3 - 1, 5) + 63*(-xi_2 - xi_3 + 1)*std::pow(-2*xi_1 - xi_2 - xi_3 + 1, 5) + 15*std::pow(xi_2 + xi_3 - 1, 6) + 70*std::pow(xi_2 + xi_3 - 1, 3)*std::pow(-2*xi_1 - xi_2 - xi_3 + 1, 3))/(xi_2 + xi_3 - 1);
  115 => (1/8)*(16*xi_3 - 1)*(13*xi_2 + xi_3 - 1)*(30*xi_1*std::pow(xi_2 + xi_3 - 1, 5) + 63*(-xi_2 - xi_3 + 1)*std::pow(-2*xi_1 - xi_2 - xi_3 + 1, 5) + 15*std::pow(xi_2 + xi_3 - 1, 6) + 70*std::pow(xi_2 + xi_3 - 1, 3)*std::pow(-2*xi_1 - xi_2 - xi_3 + 1, 3))/(xi_2 + xi_3 - 1);
  116 => -1/32*(308*xi_2*std::pow(xi_3 - 1, 2) + 101*std::pow(xi_3 - 1, 3) - 105*(xi_3 - 1)*std::pow(2*xi_2 + xi_3 - 1, 2))*(30*xi_1*std::pow(xi_2 + xi_3 - 1, 5) + 15*std::pow(xi_2 + xi_3 - 1, 6) - 70*std::pow(xi_2 + xi_3 - 1, 3)*std::pow(2*xi_1 + xi_2 + xi_3 - 1, 3) + 63*(xi_2 + xi_3 - 1)*std::pow(2*xi_1 + xi_2 + xi_3 - 1, 5))/((xi_3 - 1)*(xi_2 + xi_3 - 1));
  117 => (1/16)*(16*xi_3 - 1)*(-5*std::pow(xi_2 + xi_3 - 1, 6) + 105*std::pow(xi_2 + xi_3 - 1, 4)*std::pow(2*xi_1 + xi_2 + xi_3 - 1, 2) - 315*std::pow(xi_2 + xi_3 - 1, 2)*std::pow(2*xi_1 + xi_2 + xi_3 - 1, 4) + 231*std::pow(2*xi_1 + xi_2 + xi_3 - 1, 6));
  118 => (1/16)*(15*xi_2 + xi_3 - 1)*(-5*std::pow(xi_2 + xi_3 - 1, 6) + 105*std::pow(xi_2 + xi_3 - 1, 4)*std::pow(2*xi_1 + xi_2 + xi_3 - 1, 2) - 315*std::pow(xi_2 + xi_3 - 1, 2)*std::pow(2*xi_1 + xi_2 + xi_3 - 1, 4) + 231*std::pow(2*xi_1 + xi_2 + xi_3 - 1, 6));
  119 => -(70*xi_1*std::pow(xi_2 + xi_3 - 1, 7) + 35*std::pow(xi_2 + xi_3 - 1, 8) - 315*std::pow(xi_2 + xi_3 - 1, 5)*std::pow(2*xi_1 + xi_2 + xi_3 - 1, 3) + 693*std::pow(xi_2 + xi_3 - 1, 3)*std::pow(2*xi_1 + xi_2 + xi_3 - 1, 5) - 429*(xi_2 + xi_3 - 1)*std::pow(2*xi_1 + xi_2 + xi_3 - 1, 7))/(16*xi_2 + 16*xi_3 - 16);
  120 => 43758*std::pow(xi_3, 8) - 155584*std::pow(xi_3, 7) + 224224*std::pow(xi_3, 6) - 168168*std::pow(xi_3, 5) + 70070*std::pow(xi_3, 4) - 16016*std::pow(xi_3, 3) + 1848*std::pow(xi_3, 2) - 88*xi_3 + 1;
  121 => (1/16)*(3*xi_2 + xi_3 - 1)*(252*xi_3 + 3978*std::pow(2*xi_3 - 1, 7) + 6188*std::pow(2*xi_3 - 1, 6) - 546*std::pow(2*xi_3 - 1, 5) - 4095*std::pow(2*xi_3 - 1, 4) - 910*std::pow(2*xi_3 - 1, 3) + 546*std::pow(2*xi_3 - 1, 2) - 133);
  122 => -(4*xi_2*std::pow(xi_3 - 1, 2) + 3*std::pow(xi_3 - 1, 3) - 5*(xi_3 - 1)*std::pow(2*xi_2 + xi_3 - 1, 2))*(-156*xi_3 + 4641*std::pow(2*xi_3 - 1, 6) + 9282*std::pow(2*xi_3 - 1, 5) + 4095*std::pow(2*xi_3 - 1, 4) - 1820*std::pow(2*xi_3 - 1, 3) - 1365*std::pow(2*xi_3 - 1, 2) + 107)/(32*xi_3 - 32);
  123 => -(30*xi_2*std::pow(xi_3 - 1, 3) + 12*std::pow(xi_3 - 1, 4) + 15*std::pow(xi_3 - 1, 2)*std::pow(2*xi_2 + xi_3 - 1, 2) - 35*(xi_3 - 1)*std::pow(2*xi_2 + xi_3 - 1, 3))*(-210*xi_3 + 1071*std::pow(2*xi_3 - 1, 5) + 2380*std::pow(2*xi_3 - 1, 4) + 1610*std::pow(2*xi_3 - 1, 3) + 210*std::pow(2*xi_3 - 1, 2) + 87)/(32*xi_3 - 32);
  124 => (1/32)*(600*xi_3 + 765*std::pow(2*xi_3 - 1, 4) + 1700*std::pow(2*xi_3 - 1, 3) + 1230*std::pow(2*xi_3 - 1, 2) - 291)*(24*xi_2*std::pow(xi_3 - 1, 3) + 15*std::pow(xi_3 - 1, 4) - 42*std::pow(xi_3 - 1, 2)*std::pow(2*xi_2 + xi_3 - 1, 2) - 28*(xi_3 - 1)*std::pow(2*xi_2 + xi_3 - 1, 3) + 63*std::pow(2*xi_2 + xi_3 - 1, 4));
  125 => (1/16)*(252*xi_3 + 102*std::pow(2*xi_3 - 1, 3) + 204*std::pow(2*xi_3 - 1, 2) - 103)*(70*xi_2*std::pow(xi_3 - 1, 5) - 105*std::pow(-xi_3 + 1, 2)*std::pow(-2*xi_2 - xi_3 + 1, 4) + 231*(-xi_3 + 1)*std::pow(-2*xi_2 - xi_3 + 1, 5) + 30*std::pow(xi_3 - 1, 6) + 70*std::pow(xi_3 - 1, 4)*std::pow(-2*xi_2 - xi_3 + 1, 2) + 210*std::pow(xi_3 - 1, 3)*std::pow(-2*xi_2 - xi_3 + 1, 3))/(xi_3 - 1);
  126 => -(476*xi_3 + 153*std::pow(2*xi_3 - 1, 2) - 149)*(60*xi_2*std::pow(xi_3 - 1, 6) + 35*std::pow(xi_3 - 1, 7) - 135*std::pow(xi_3 - 1, 5)*std::pow(2*xi_2 + xi_3 - 1, 2) - 180*std::pow(xi_3 - 1, 4)*std::pow(2*xi_2 + xi_3 - 1, 3) + 495*std::pow(xi_3 - 1, 3)*std::pow(2*xi_2 + xi_3 - 1, 4) + 198*std::pow(xi_3 - 1, 2)*std::pow(2*xi_2 + xi_3 - 1, 5) - 429*(xi_3 - 1)*std::pow(2*xi_2 + xi_3 - 1, 6))/(64*xi_3 - 64);
  127 => -(18*xi_3 - 1)*(630*xi_2*std::pow(xi_3 - 1, 7) + 280*std::pow(xi_3 - 1, 8) + 945*std::pow(xi_3 - 1, 6)*std::pow(2*xi_2 + xi_3 - 1, 2) - 3465*std::pow(xi_3 - 1, 5)*std::pow(2*xi_2 + xi_3 - 1, 3) - 3465*std::pow(xi_3 - 1, 4)*std::pow(2*xi_2 + xi_3 - 1, 4) + 9009*std::pow(xi_3 - 1, 3)*std::pow(2*xi_2 + xi_3 - 1, 5) + 3003*std::pow(xi_3 - 1, 2)*std::pow(2*xi_2 + xi_3 - 1, 6) - 6435*(xi_3 - 1)*std::pow(2*xi_2 + xi_3 - 1, 7))/(128*xi_3 - 128);
  128 => (35/8)*xi_2*std::pow(xi_3 - 1, 7) + (385/32)*(-xi_3 + 1)*std::pow(xi_3 - 1, 5)*std::pow(2*xi_2 + xi_3 - 1, 2) + (385/16)*(-xi_3 + 1)*std::pow(xi_3 - 1, 4)*std::pow(2*xi_2 + xi_3 - 1, 3) + (5005/32)*(-xi_3 + 1)*(xi_3 - 1)*std::pow(2*xi_2 + xi_3 - 1, 6) + (715/16)*(-xi_3 + 1)*std::pow(2*xi_2 + xi_3 - 1, 7) + (315/128)*std::pow(xi_3 - 1, 8) + (5005/64)*std::pow(xi_3 - 1, 4)*std::pow(2*xi_2 + xi_3 - 1, 4) + (1001/16)*std::pow(xi_3 - 1, 3)*std::pow(2*xi_2 + xi_3 - 1, 5) + (12155/128)*std::pow(2*xi_2 + xi_3 - 1, 8);
  129 => (1/16)*(2*xi_1 + xi_2 + xi_3 - 1)*(252*xi_3 + 3978*std::pow(2*xi_3 - 1, 7) + 6188*std::pow(2*xi_3 - 1, 6) - 546*std::pow(2*xi_3 - 1, 5) - 4095*std::pow(2*xi_3 - 1, 4) - 910*std::pow(2*xi_3 - 1, 3) + 546*std::pow(2*xi_3 - 1, 2) - 133);
  130 => (1/16)*(5*xi_2 + xi_3 - 1)*(2*xi_1 + xi_2 + xi_3 - 1)*(-156*xi_3 + 4641*std::pow(2*xi_3 - 1, 6) + 9282*std::pow(2*xi_3 - 1, 5) + 4095*std::pow(2*xi_3 - 1, 4) - 1820*std::pow(2*xi_3 - 1, 3) - 1365*std::pow(2*xi_3 - 1, 2) + 107);
  131 => -(36*xi_2*std::pow(xi_3 - 1, 2) + 17*std::pow(xi_3 - 1, 3) - 21*(xi_3 - 1)*std::pow(2*xi_2 + xi_3 - 1, 2))*(2*xi_1 + xi_2 + xi_3 - 1)*(-210*xi_3 + 1071*std::pow(2*xi_3 - 1, 5) + 2380*std::pow(2*xi_3 - 1, 4) + 1610*std::pow(2*xi_3 - 1, 3) + 210*std::pow(2*xi_3 - 1, 2) + 87)/(16*xi_3 - 16);
  132 => (1/8)*(2*std::pow(xi_3 - 1, 3) - 21*(xi_3 - 1)*std::pow(2*xi_2 + xi_3 - 1, 2) + 21*std::pow(2*xi_2 + xi_3 - 1, 3))*(2*xi_1 + xi_2 + xi_3 - 1)*(600*xi_3 + 765*std::pow(2*xi_3 - 1, 4) + 1700*std::pow(2*xi_3 - 1, 3) + 1230*std::pow(2*xi_3 - 1, 2) - 291);
  133 => (1/8)*(2*xi_1 + xi_2 + xi_3 - 1)*(252*xi_3 + 102*std::pow(2*xi_3 - 1, 3) + 204*std::pow(2*xi_3 - 1, 2) - 103)*(88*xi_2*std::pow(xi_3 - 1, 3) + 41*std::pow(xi_3 - 1, 4) - 18*std::pow(xi_3 - 1, 2)*std::pow(2*xi_2 + xi_3 - 1, 2) - 180*(xi_3 - 1)*std::pow(2*xi_2 + xi_3 - 1, 3) + 165*std::pow(2*xi_2 + xi_3 - 1, 4));
  134 => (1/128)*(476*xi_3 + 153*std::pow(2*xi_3 - 1, 2) - 149)*(2*xi_1 + xi_2 + xi_3 - 1)*(-90*xi_2*std::pow(xi_3 - 1, 5) - 70*std::pow(-xi_3 + 1, 6) - 1485*std::pow(-xi_3 + 1, 2)*std::pow(-2*xi_2 - xi_3 + 1, 4) + 1287*(-xi_3 + 1)*std::pow(-2*xi_2 - xi_3 + 1, 5) + 630*std::pow(xi_3 - 1, 4)*std::pow(-2*xi_2 - xi_3 + 1, 2) + 330*std::pow(xi_3 - 1, 3)*std::pow(-2*xi_2 - xi_3 + 1, 3))/(xi_3 - 1);
  135 => -(18*xi_3 - 1)*(2*xi_1 + xi_2 + xi_3 - 1)*(780*xi_2*std::pow(xi_3 - 1, 6) + 365*std::pow(xi_3 - 1, 7) + 165*std::pow(xi_3 - 1, 5)*std::pow(2*xi_2 + xi_3 - 1, 2) - 3740*std::pow(xi_3 - 1, 4)*std::pow(2*xi_2 + xi_3 - 1, 3) + 2145*std::pow(xi_3 - 1, 3)*std::pow(2*xi_2 + xi_3 - 1, 4) + 6006*std::pow(xi_3 - 1, 2)*std::pow(2*xi_2 + xi_3 - 1, 5) - 5005*(xi_3 - 1)*std::pow(2*xi_2 + xi_3 - 1, 6))/(64*xi_3 - 64);
  136 => (1/32)*(2*xi_1 + xi_2 + xi_3 - 1)*(154*xi_2*std::pow(xi_3 - 1, 7) - 924*std::pow(-xi_3 + 1, 6)*std::pow(-2*xi_2 - xi_3 + 1, 2) - 6006*std::pow(-xi_3 + 1, 2)*std::pow(-2*xi_2 - xi_3 + 1, 6) + 4862*(-xi_3 + 1)*std::pow(-2*xi_2 - xi_3 + 1, 7) + 98*std::pow(xi_3 - 1, 8) + 5005*std::pow(xi_3 - 1, 4)*std::pow(-2*xi_2 - xi_3 + 1, 4) + 3003*std::pow(xi_3 - 1, 3)*std::pow(-2*xi_2 - xi_3 + 1, 5))/(xi_3 - 1);
  137 => (1/32)*(-std::pow(xi_2 + xi_3 - 1, 2) + 3*std::pow(2*xi_1 + xi_2 + xi_3 - 1, 2))*(-156*xi_3 + 4641*std::pow(2*xi_3 - 1, 6) + 9282*std::pow(2*xi_3 - 1, 5) + 4095*std::pow(2*xi_3 - 1, 4) - 1820*std::pow(2*xi_3 - 1, 3) - 1365*std::pow(2*xi_3 - 1, 2) + 107);
  138 => (1/8)*(-std::pow(xi_2 + xi_3 - 1, 2) + 3*std::pow(2*xi_1 + xi_2 + xi_3 - 1, 2))*(7*xi_2 + xi_3 - 1)*(-210*xi_3 + 1071*std::pow(2*xi_3 - 1, 5) + 2380*std::pow(2*xi_3 - 1, 4) + 1610*std::pow(2*xi_3 - 1, 3) + 210*std::pow(2*xi_3 - 1, 2) + 87);
  139 => (std::pow(xi_2 + xi_3 - 1, 2) - 3*std::pow(2*xi_1 + xi_2 + xi_3 - 1, 2))*(20*xi_2*std::pow(xi_3 - 1, 2) + 8*std::pow(xi_3 - 1, 3) - 9*(xi_3 - 1)*std::pow(2*xi_2 + xi_3 - 1, 2))*(600*xi_3 + 765*std::pow(2*xi_3 - 1, 4) + 1700*std::pow(2*xi_3 - 1, 3) + 1230*std::pow(2*xi_3 - 1, 2) - 291)/(8*xi_3 - 8);
  140 => (1/16)*(-std::pow(xi_2 + xi_3 - 1, 2) + 3*std::pow(2*xi_1 + xi_2 + xi_3 - 1, 2))*(252*xi_3 + 102*std::pow(2*xi_3 - 1, 3) + 204*std::pow(2*xi_3 - 1, 2) - 103)*(126*xi_2*std::pow(xi_3 - 1, 3) - 225*std::pow(-xi_3 + 1, 2)*std::pow(-2*xi_2 - xi_3 + 1, 2) + 165*(-xi_3 + 1)*std::pow(-2*xi_2 - xi_3 + 1, 3) + 68*std::pow(xi_3 - 1, 4))/(xi_3 - 1);
  141 => (1/128)*(-std::pow(xi_2 + xi_3 - 1, 2) + 3*std::pow(2*xi_1 + xi_2 + xi_3 - 1, 2))*(476*xi_3 + 153*std::pow(2*xi_3 - 1, 2) - 149)*(200*xi_2*std::pow(xi_3 - 1, 3) + 71*std::pow(xi_3 - 1, 4) + 330*std::pow(xi_3 - 1, 2)*std::pow(2*xi_2 + xi_3 - 1, 2) - 1100*(xi_3 - 1)*std::pow(2*xi_2 + xi_3 - 1, 3) + 715*std::pow(2*xi_2 + xi_3 - 1, 4));
  142 => (18*xi_3 - 1)*(std::pow(xi_2 + xi_3 - 1, 2) - 3*std::pow(2*xi_1 + xi_2 + xi_3 - 1, 2))*(770*xi_2*std::pow(xi_3 - 1, 5) + 386*std::pow(xi_3 - 1, 6) - 990*std::pow(xi_3 - 1, 4)*std::pow(2*xi_2 + xi_3 - 1, 2) - 1430*std::pow(xi_3 - 1, 3)*std::pow(2*xi_2 + xi_3 - 1, 3) + 5005*std::pow(xi_3 - 1, 2)*std::pow(2*xi_2 + xi_3 - 1, 4) - 3003*(xi_3 - 1)*std::pow(2*xi_2 + xi_3 - 1, 5))/(64*xi_3 - 64);
  143 => (1/32)*(std::pow(xi_2 + xi_3 - 1, 2) - 3*std::pow(2*xi_1 + xi_2 + xi_3 - 1, 2))*(96*xi_2*std::pow(xi_3 - 1, 5) + 23*std::pow(xi_3 - 1, 6) + 780*std::pow(xi_3 - 1, 4)*std::pow(2*xi_2 + xi_3 - 1, 2) - 1820*std::pow(xi_3 - 1, 3)*std::pow(2*xi_2 + xi_3 - 1, 3) - 1365*std::pow(xi_3 - 1, 2)*std::pow(2*xi_2 + xi_3 - 1, 4) + 5460*(xi_3 - 1)*std::pow(2*xi_2 + xi_3 - 1, 5) - 3094*std::pow(2*xi_2 + xi_3 - 1, 6));
  144 => -(6*xi_1*std::pow(xi_2 + xi_3 - 1, 3) + 3*std::pow(xi_2 + xi_3 - 1, 4) - 5*(xi_2 + xi_3 - 1)*std::pow(2*xi_1 + xi_2 + xi_3 - 1, 3))*(-210*xi_3 + 1071*std::pow(2*xi_3 - 1, 5) + 2380*std::pow(2*xi_3 - 1, 4) + 1610*std::pow(2*xi_3 - 1, 3) + 210*std::pow(2*xi_3 - 1, 2) + 87)/(8*xi_2 + 8*xi_3 - 8);
  145 => (1/8)*(9*xi_2 + xi_3 - 1)*(6*xi_1*std::pow(xi_2 + xi_3 - 1, 3) + 5*(-xi_2 - xi_3 + 1)*std::pow(2*xi_1 + xi_2 + xi_3 - 1, 3) + 3*std::pow(xi_2 + xi_3 - 1, 4))*(600*xi_3 + 765*std::pow(2*xi_3 - 1, 4) + 1700*std::pow(2*xi_3 - 1, 3) + 1230*std::pow(2*xi_3 - 1, 2) - 291)/(-xi_2 - xi_3 + 1);
  146 => (1/8)*(6*xi_1*std::pow(xi_2 + xi_3 - 1, 3) + 5*(-xi_2 - xi_3 + 1)*std::pow(2*xi_1 + xi_2 + xi_3 - 1, 3) + 3*std::pow(xi_2 + xi_3 - 1, 4))*(140*xi_2*std::pow(xi_3 - 1, 2) + 55*(-xi_3 + 1)*std::pow(-2*xi_2 - xi_3 + 1, 2) + 51*std::pow(xi_3 - 1, 3))*(252*xi_3 + 102*std::pow(2*xi_3 - 1, 3) + 204*std::pow(2*xi_3 - 1, 2) - 103)/((xi_3 - 1)*(xi_2 + xi_3 - 1));
  147 => -(476*xi_3 + 153*std::pow(2*xi_3 - 1, 2) - 149)*(6*xi_1*std::pow(xi_2 + xi_3 - 1, 3) + 3*std::pow(xi_2 + xi_3 - 1, 4) - 5*(xi_2 + xi_3 - 1)*std::pow(2*xi_1 + xi_2 + xi_3 - 1, 3))*(198*xi_2*std::pow(xi_3 - 1, 2) + 92*std::pow(xi_3 - 1, 3) - 231*(xi_3 - 1)*std::pow(2*xi_2 + xi_3 - 1, 2) + 143*std::pow(2*xi_2 + xi_3 - 1, 3))/(32*xi_2 + 32*xi_3 - 32);
  148 => (1/32)*(18*xi_3 - 1)*(6*xi_1*std::pow(xi_2 + xi_3 - 1, 3) + 5*(-xi_2 - xi_3 + 1)*std::pow(2*xi_1 + xi_2 + xi_3 - 1, 3) + 3*std::pow(xi_2 + xi_3 - 1, 4))*(-168*xi_2*std::pow(xi_3 - 1, 3) - 127*std::pow(xi_3 - 1, 4) + 1326*std::pow(xi_3 - 1, 2)*std::pow(2*xi_2 + xi_3 - 1, 2) - 2548*(xi_3 - 1)*std::pow(2*xi_2 + xi_3 - 1, 3) + 1365*std::pow(2*xi_2 + xi_3 - 1, 4))/(-xi_2 - xi_3 + 1);
  149 => (1/16)*(6*xi_1*std::pow(xi_2 + xi_3 - 1, 3) + 5*(-xi_2 - xi_3 + 1)*std::pow(2*xi_1 + xi_2 + xi_3 - 1, 3) + 3*std::pow(xi_2 + xi_3 - 1, 4))*(390*xi_2*std::pow(xi_3 - 1, 5) + 1820*std::pow(-xi_3 + 1, 3)*std::pow(2*xi_2 + xi_3 - 1, 3) + 1547*(-xi_3 + 1)*std::pow(2*xi_2 + xi_3 - 1, 5) + 174*std::pow(xi_3 - 1, 6) + 3185*std::pow(xi_3 - 1, 2)*std::pow(2*xi_2 + xi_3 - 1, 4))/((xi_3 - 1)*(xi_2 + xi_3 - 1));
  150 => (1/32)*(3*std::pow(xi_2 + xi_3 - 1, 4) - 30*std::pow(xi_2 + xi_3 - 1, 2)*std::pow(2*xi_1 + xi_2 + xi_3 - 1, 2) + 35*std::pow(2*xi_1 + xi_2 + xi_3 - 1, 4))*(600*xi_3 + 765*std::pow(2*xi_3 - 1, 4) + 1700*std::pow(2*xi_3 - 1, 3) + 1230*std::pow(2*xi_3 - 1, 2) - 291);
  151 => (1/8)*(11*xi_2 + xi_3 - 1)*(3*std::pow(xi_2 + xi_3 - 1, 4) - 30*std::pow(xi_2 + xi_3 - 1, 2)*std::pow(2*xi_1 + xi_2 + xi_3 - 1, 2) + 35*std::pow(2*xi_1 + xi_2 + xi_3 - 1, 4))*(252*xi_3 + 102*std::pow(2*xi_3 - 1, 3) + 204*std::pow(2*xi_3 - 1, 2) - 103);
  152 => -(476*xi_3 + 153*std::pow(2*xi_3 - 1, 2) - 149)*(108*xi_2*std::pow(xi_3 - 1, 2) + 37*std::pow(xi_3 - 1, 3) - 39*(xi_3 - 1)*std::pow(2*xi_2 + xi_3 - 1, 2))*(3*std::pow(xi_2 + xi_3 - 1, 4) - 30*std::pow(xi_2 + xi_3 - 1, 2)*std::pow(2*xi_1 + xi_2 + xi_3 - 1, 2) + 35*std::pow(2*xi_1 + xi_2 + xi_3 - 1, 4))/(64*xi_3 - 64);
  153 => (1/64)*(18*xi_3 - 1)*(3*std::pow(xi_2 + xi_3 - 1, 4) - 30*std::pow(xi_2 + xi_3 - 1, 2)*std::pow(2*xi_1 + xi_2 + xi_3 - 1, 2) + 35*std::pow(2*xi_1 + xi_2 + xi_3 - 1, 4))*(858*xi_2*std::pow(xi_3 - 1, 3) - 819*std::pow(-xi_3 + 1, 2)*std::pow(-2*xi_2 - xi_3 + 1, 2) + 455*(-xi_3 + 1)*std::pow(-2*xi_2 - xi_3 + 1, 3) + 372*std::pow(xi_3 - 1, 4))/(xi_3 - 1);
  154 => (1/32)*(3*std::pow(xi_2 + xi_3 - 1, 4) - 30*std::pow(xi_2 + xi_3 - 1, 2)*std::pow(2*xi_1 + xi_2 + xi_3 - 1, 2) + 35*std::pow(2*xi_1 + xi_2 + xi_3 - 1, 4))*(-336*xi_2*std::pow(xi_3 - 1, 3) - 171*std::pow(xi_3 - 1, 4) + 840*std::pow(xi_3 - 1, 2)*std::pow(2*xi_2 + xi_3 - 1, 2) - 1260*(xi_3 - 1)*std::pow(2*xi_2 + xi_3 - 1, 3) + 595*std::pow(2*xi_2 + xi_3 - 1, 4));
  155 => (1/8)*(252*xi_3 + 102*std::pow(2*xi_3 - 1, 3) + 204*std::pow(2*xi_3 - 1, 2) - 103)*(30*xi_1*std::pow(xi_2 + xi_3 - 1, 5) + 63*(-xi_2 - xi_3 + 1)*std::pow(-2*xi_1 - xi_2 - xi_3 + 1, 5) + 15*std::pow(xi_2 + xi_3 - 1, 6) + 70*std::pow(xi_2 + xi_3 - 1, 3)*std::pow(-2*xi_1 - xi_2 - xi_3 + 1, 3))/(xi_2 + xi_3 - 1);
  156 => (1/32)*(13*xi_2 + xi_3 - 1)*(476*xi_3 + 153*std::pow(2*xi_3 - 1, 2) - 149)*(30*xi_1*std::pow(xi_2 + xi_3 - 1, 5) + 63*(-xi_2 - xi_3 + 1)*std::pow(-2*xi_1 - xi_2 - xi_3 + 1, 5) + 15*std::pow(xi_2 + xi_3 - 1, 6) + 70*std::pow(xi_2 + xi_3 - 1, 3)*std::pow(-2*xi_1 - xi_2 - xi_3 + 1, 3))/(xi_2 + xi_3 - 1);
  157 => -1/32*(18*xi_3 - 1)*(308*xi_2*std::pow(xi_3 - 1, 2) + 101*std::pow(xi_3 - 1, 3) - 105*(xi_3 - 1)*std::pow(2*xi_2 + xi_3 - 1, 2))*(30*xi_1*std::pow(xi_2 + xi_3 - 1, 5) + 15*std::pow(xi_2 + xi_3 - 1, 6) - 70*std::pow(xi_2 + xi_3 - 1, 3)*std::pow(2*xi_1 + xi_2 + xi_3 - 1, 3) + 63*(xi_2 + xi_3 - 1)*std::pow(2*xi_1 + xi_2 + xi_3 - 1, 5))/((xi_3 - 1)*(xi_2 + xi_3 - 1));
  158 => (1/8)*(30*xi_1*std::pow(xi_2 + xi_3 - 1, 5) + 63*(-xi_2 - xi_3 + 1)*std::pow(-2*xi_1 - xi_2 - xi_3 + 1, 5) + 15*std::pow(xi_2 + xi_3 - 1, 6) + 70*std::pow(xi_2 + xi_3 - 1, 3)*std::pow(-2*xi_1 - xi_2 - xi_3 + 1, 3))*(195*xi_2*std::pow(xi_3 - 1, 2) + 81*std::pow(xi_3 - 1, 3) - 165*(xi_3 - 1)*std::pow(-2*xi_2 - xi_3 + 1, 2) - 85*std::pow(-2*xi_2 - xi_3 + 1, 3))/(xi_2 + xi_3 - 1);
  159 => (1/64)*(476*xi_3 + 153*std::pow(2*xi_3 - 1, 2) - 149)*(-5*std::pow(xi_2 + xi_3 - 1, 6) + 105*std::pow(xi_2 + xi_3 - 1, 4)*std::pow(2*xi_1 + xi_2 + xi_3 - 1, 2) - 315*std::pow(xi_2 + xi_3 - 1, 2)*std::pow(2*xi_1 + xi_2 + xi_3 - 1, 4) + 231*std::pow(2*xi_1 + xi_2 + xi_3 - 1, 6));
  160 => (1/16)*(18*xi_3 - 1)*(15*xi_2 + xi_3 - 1)*(-5*std::pow(xi_2 + xi_3 - 1, 6) + 105*std::pow(xi_2 + xi_3 - 1, 4)*std::pow(2*xi_1 + xi_2 + xi_3 - 1, 2) - 315*std::pow(xi_2 + xi_3 - 1, 2)*std::pow(2*xi_1 + xi_2 + xi_3 - 1, 4) + 231*std::pow(2*xi_1 + xi_2 + xi_3 - 1, 6));
  161 => (104*xi_2*std::pow(xi_3 - 1, 2) + 33*std::pow(xi_3 - 1, 3) - 34*(xi_3 - 1)*std::pow(2*xi_2 + xi_3 - 1, 2))*(5*std::pow(xi_2 + xi_3 - 1, 6) - 105*std::pow(xi_2 + xi_3 - 1, 4)*std::pow(2*xi_1 + xi_2 + xi_3 - 1, 2) + 315*std::pow(xi_2 + xi_3 - 1, 2)*std::pow(2*xi_1 + xi_2 + xi_3 - 1, 4) - 231*std::pow(2*xi_1 + xi_2 + xi_3 - 1, 6))/(16*xi_3 - 16);
  162 => -(18*xi_3 - 1)*(70*xi_1*std::pow(xi_2 + xi_3 - 1, 7) + 35*std::pow(xi_2 + xi_3 - 1, 8) - 315*std::pow(xi_2 + xi_3 - 1, 5)*std::pow(2*xi_1 + xi_2 + xi_3 - 1, 3) + 693*std::pow(xi_2 + xi_3 - 1, 3)*std::pow(2*xi_1 + xi_2 + xi_3 - 1, 5) - 429*(xi_2 + xi_3 - 1)*std::pow(2*xi_1 + xi_2 + xi_3 - 1, 7))/(16*xi_2 + 16*xi_3 - 16);
  163 => -(17*xi_2 + xi_3 - 1)*(70*xi_1*std::pow(xi_2 + xi_3 - 1, 7) + 35*std::pow(xi_2 + xi_3 - 1, 8) - 315*std::pow(xi_2 + xi_3 - 1, 5)*std::pow(2*xi_1 + xi_2 + xi_3 - 1, 3) + 693*std::pow(xi_2 + xi_3 - 1, 3)*std::pow(2*xi_1 + xi_2 + xi_3 - 1, 5) - 429*(xi_2 + xi_3 - 1)*std::pow(2*xi_1 + xi_2 + xi_3 - 1, 7))/(16*xi_2 + 16*xi_3 - 16);
  164 => (35/128)*std::pow(xi_2 + xi_3 - 1, 8) - 315/32*std::pow(xi_2 + xi_3 - 1, 6)*std::pow(2*xi_1 + xi_2 + xi_3 - 1, 2) + (3465/64)*std::pow(xi_2 + xi_3 - 1, 4)*std::pow(2*xi_1 + xi_2 + xi_3 - 1, 4) - 3003/32*std::pow(xi_2 + xi_3 - 1, 2)*std::pow(2*xi_1 + xi_2 + xi_3 - 1, 6) + (6435/128)*std::pow(2*xi_1 + xi_2 + xi_3 - 1, 8);
  165 => 167960*std::pow(xi_3, 9) - 680238*std::pow(xi_3, 8) + 1145664*std::pow(xi_3, 7) - 1039584*std::pow(xi_3, 6) + 550368*std::pow(xi_3, 5) - 171990*std::pow(xi_3, 4) + 30576*std::pow(xi_3, 3) - 2808*std::pow(xi_3, 2) + 108*xi_3 - 1;
  166 => (1/128)*(3*xi_2 + xi_3 - 1)*(-1456*xi_3 + 62985*std::pow(2*xi_3 - 1, 8) + 100776*std::pow(2*xi_3 - 1, 7) - 18564*std::pow(2*xi_3 - 1, 6) - 86632*std::pow(2*xi_3 - 1, 5) - 17290*std::pow(2*xi_3 - 1, 4) + 18200*std::pow(2*xi_3 - 1, 3) + 4732*std::pow(2*xi_3 - 1, 2) + 609);
  167 => -(4*xi_2*std::pow(xi_3 - 1, 2) + 3*std::pow(xi_3 - 1, 3) - 5*(xi_3 - 1)*std::pow(2*xi_2 + xi_3 - 1, 2))*(616*xi_3 + 9690*std::pow(2*xi_3 - 1, 7) + 20349*std::pow(2*xi_3 - 1, 6) + 8568*std::pow(2*xi_3 - 1, 5) - 6545*std::pow(2*xi_3 - 1, 4) - 4830*std::pow(2*xi_3 - 1, 3) - 105*std::pow(2*xi_3 - 1, 2) - 287)/(32*xi_3 - 32);
  168 => -(30*xi_2*std::pow(xi_3 - 1, 3) + 12*std::pow(xi_3 - 1, 4) + 15*std::pow(xi_3 - 1, 2)*std::pow(2*xi_2 + xi_3 - 1, 2) - 35*(xi_3 - 1)*std::pow(2*xi_2 + xi_3 - 1, 3))*(-600*xi_3 + 4845*std::pow(2*xi_3 - 1, 6) + 11628*std::pow(2*xi_3 - 1, 5) + 8415*std::pow(2*xi_3 - 1, 4) + 680*std::pow(2*xi_3 - 1, 3) - 1245*std::pow(2*xi_3 - 1, 2) + 301)/(64*xi_3 - 64);
  169 => (1/32)*(24*xi_2*std::pow(xi_3 - 1, 3) + 15*std::pow(xi_3 - 1, 4) - 42*std::pow(xi_3 - 1, 2)*std::pow(2*xi_2 + xi_3 - 1, 2) - 28*(xi_3 - 1)*std::pow(2*xi_2 + xi_3 - 1, 3) + 63*std::pow(2*xi_2 + xi_3 - 1, 4))*(-20*xi_3 + 1938*std::pow(2*xi_3 - 1, 5) + 4845*std::pow(2*xi_3 - 1, 4) + 4080*std::pow(2*xi_3 - 1, 3) + 1190*std::pow(2*xi_3 - 1, 2) - 21);
  170 => (1/256)*(5848*xi_3 + 4845*std::pow(2*xi_3 - 1, 4) + 11628*std::pow(2*xi_3 - 1, 3) + 9486*std::pow(2*xi_3 - 1, 2) - 2687)*(70*xi_2*std::pow(xi_3 - 1, 5) - 105*std::pow(-xi_3 + 1, 2)*std::pow(-2*xi_2 - xi_3 + 1, 4) + 231*(-xi_3 + 1)*std::pow(-2*xi_2 - xi_3 + 1, 5) + 30*std::pow(xi_3 - 1, 6) + 70*std::pow(xi_3 - 1, 4)*std::pow(-2*xi_2 - xi_3 + 1, 2) + 210*std::pow(xi_3 - 1, 3)*std::pow(-2*xi_2 - xi_3 + 1, 3))/(xi_3 - 1);
  171 => -(1584*xi_3 + 570*std::pow(2*xi_3 - 1, 3) + 1197*std::pow(2*xi_3 - 1, 2) - 631)*(60*xi_2*std::pow(xi_3 - 1, 6) + 35*std::pow(xi_3 - 1, 7) - 135*std::pow(xi_3 - 1, 5)*std::pow(2*xi_2 + xi_3 - 1, 2) - 180*std::pow(xi_3 - 1, 4)*std::pow(2*xi_2 + xi_3 - 1, 3) + 495*std::pow(xi_3 - 1, 3)*std::pow(2*xi_2 + xi_3 - 1, 4) + 198*std::pow(xi_3 - 1, 2)*std::pow(2*xi_2 + xi_3 - 1, 5) - 429*(xi_3 - 1)*std::pow(2*xi_2 + xi_3 - 1, 6))/(64*xi_3 - 64);
  172 => -(304*xi_3 + 95*std::pow(2*xi_3 - 1, 2) - 93)*(630*xi_2*std::pow(xi_3 - 1, 7) + 280*std::pow(xi_3 - 1, 8) + 945*std::pow(xi_3 - 1, 6)*std::pow(2*xi_2 + xi_3 - 1, 2) - 3465*std::pow(xi_3 - 1, 5)*std::pow(2*xi_2 + xi_3 - 1, 3) - 3465*std::pow(xi_3 - 1, 4)*std::pow(2*xi_2 + xi_3 - 1, 4) + 9009*std::pow(xi_3 - 1, 3)*std::pow(2*xi_2 + xi_3 - 1, 5) + 3003*std::pow(xi_3 - 1, 2)*std::pow(2*xi_2 + xi_3 - 1, 6) - 6435*(xi_3 - 1)*std::pow(2*xi_2 + xi_3 - 1, 7))/(256*xi_3 - 256);
  173 => (1/128)*(20*xi_3 - 1)*(560*xi_2*std::pow(xi_3 - 1, 7) - 1540*std::pow(-xi_3 + 1, 6)*std::pow(2*xi_2 + xi_3 - 1, 2) + 3080*std::pow(-xi_3 + 1, 5)*std::pow(2*xi_2 + xi_3 - 1, 3) - 20020*std::pow(-xi_3 + 1, 2)*std::pow(2*xi_2 + xi_3 - 1, 6) + 5720*(-xi_3 + 1)*std::pow(2*xi_2 + xi_3 - 1, 7) + 315*std::pow(xi_3 - 1, 8) + 10010*std::pow(xi_3 - 1, 4)*std::pow(2*xi_2 + xi_3 - 1, 4) + 8008*std::pow(xi_3 - 1, 3)*std::pow(2*xi_2 + xi_3 - 1, 5) + 12155*std::pow(2*xi_2 + xi_3 - 1, 8));
  174 => (1/256)*(1386*xi_2*std::pow(xi_3 - 1, 9) - 18018*std::pow(-xi_3 + 1, 6)*std::pow(-2*xi_2 - xi_3 + 1, 4) + 54054*std::pow(-xi_3 + 1, 5)*std::pow(-2*xi_2 - xi_3 + 1, 5) - 21879*std::pow(-xi_3 + 1, 2)*std::pow(-2*xi_2 - xi_3 + 1, 8) + 46189*(-xi_3 + 1)*std::pow(-2*xi_2 - xi_3 + 1, 9) + 630*std::pow(xi_3 - 1, 10) + 2772*std::pow(xi_3 - 1, 8)*std::pow(-2*xi_2 - xi_3 + 1, 2) + 12012*std::pow(xi_3 - 1, 7)*std::pow(-2*xi_2 - xi_3 + 1, 3) + 36036*std::pow(xi_3 - 1, 4)*std::pow(-2*xi_2 - xi_3 + 1, 6) + 87516*std::pow(xi_3 - 1, 3)*std::pow(-2*xi_2 - xi_3 + 1, 7))/(xi_3 - 1);
  175 => (1/128)*(2*xi_1 + xi_2 + xi_3 - 1)*(-1456*xi_3 + 62985*std::pow(2*xi_3 - 1, 8) + 100776*std::pow(2*xi_3 - 1, 7) - 18564*std::pow(2*xi_3 - 1, 6) - 86632*std::pow(2*xi_3 - 1, 5) - 17290*std::pow(2*xi_3 - 1, 4) + 18200*std::pow(2*xi_3 - 1, 3) + 4732*std::pow(2*xi_3 - 1, 2) + 609);
  176 => (1/16)*(5*xi_2 + xi_3 - 1)*(2*xi_1 + xi_2 + xi_3 - 1)*(616*xi_3 + 9690*std::pow(2*xi_3 - 1, 7) + 20349*std::pow(2*xi_3 - 1, 6) + 8568*std::pow(2*xi_3 - 1, 5) - 6545*std::pow(2*xi_3 - 1, 4) - 4830*std::pow(2*xi_3 - 1, 3) - 105*std::pow(2*xi_3 - 1, 2) - 287);
  177 => -(36*xi_2*std::pow(xi_3 - 1, 2) + 17*std::pow(xi_3 - 1, 3) - 21*(xi_3 - 1)*std::pow(2*xi_2 + xi_3 - 1, 2))*(2*xi_1 + xi_2 + xi_3 - 1)*(-600*xi_3 + 4845*std::pow(2*xi_3 - 1, 6) + 11628*std::pow(2*xi_3 - 1, 5) + 8415*std::pow(2*xi_3 - 1, 4) + 680*std::pow(2*xi_3 - 1, 3) - 1245*std::pow(2*xi_3 - 1, 2) + 301)/(32*xi_3 - 32);
  178 => (1/8)*(2*std::pow(xi_3 - 1, 3) - 21*(xi_3 - 1)*std::pow(2*xi_2 + xi_3 - 1, 2) + 21*std::pow(2*xi_2 + xi_3 - 1, 3))*(2*xi_1 + xi_2 + xi_3 - 1)*(-20*xi_3 + 1938*std::pow(2*xi_3 - 1, 5) + 4845*std::pow(2*xi_3 - 1, 4) + 4080*std::pow(2*xi_3 - 1, 3) + 1190*std::pow(2*xi_3 - 1, 2) - 21);
  179 => (1/128)*(2*xi_1 + xi_2 + xi_3 - 1)*(5848*xi_3 + 4845*std::pow(2*xi_3 - 1, 4) + 11628*std::pow(2*xi_3 - 1, 3) + 9486*std::pow(2*xi_3 - 1, 2) - 2687)*(88*xi_2*std::pow(xi_3 - 1, 3) + 41*std::pow(xi_3 - 1, 4) - 18*std::pow(xi_3 - 1, 2)*std::pow(2*xi_2 + xi_3 - 1, 2) - 180*(xi_3 - 1)*std::pow(2*xi_2 + xi_3 - 1, 3) + 165*std::pow(2*xi_2 + xi_3 - 1, 4));
  180 => (1/128)*(2*xi_1 + xi_2 + xi_3 - 1)*(1584*xi_3 + 570*std::pow(2*xi_3 - 1, 3) + 1197*std::pow(2*xi_3 - 1, 2) - 631)*(-90*xi_2*std::pow(xi_3 - 1, 5) - 70*std::pow(-xi_3 + 1, 6) - 1485*std::pow(-xi_3 + 1, 2)*std::pow(-2*xi_2 - xi_3 + 1, 4) + 1287*(-xi_3 + 1)*std::pow(-2*xi_2 - xi_3 + 1, 5) + 630*std::pow(xi_3 - 1, 4)*std::pow(-2*xi_2 - xi_3 + 1, 2) + 330*std::pow(xi_3 - 1, 3)*std::pow(-2*xi_2 - xi_3 + 1, 3))/(xi_3 - 1);
  181 => -(304*xi_3 + 95*std::pow(2*xi_3 - 1, 2) - 93)*(2*xi_1 + xi_2 + xi_3 - 1)*(780*xi_2*std::pow(xi_3 - 1, 6) + 365*std::pow(xi_3 - 1, 7) + 165*std::pow(xi_3 - 1, 5)*std::pow(2*xi_2 + xi_3 - 1, 2) - 3740*std::pow(xi_3 - 1, 4)*std::pow(2*xi_2 + xi_3 - 1, 3) + 2145*std::pow(xi_3 - 1, 3)*std::pow(2*xi_2 + xi_3 - 1, 4) + 6006*std::pow(xi_3 - 1, 2)*std::pow(2*xi_2 + xi_3 - 1, 5) - 5005*(xi_3 - 1)*std::pow(2*xi_2 + xi_3 - 1, 6))/(128*xi_3 - 128);
  182 => (1/32)*(20*xi_3 - 1)*(2*xi_1 + xi_2 + xi_3 - 1)*(154*xi_2*std::pow(xi_3 - 1, 7) - 924*std::pow(-xi_3 + 1, 6)*std::pow(-2*xi_2 - xi_3 + 1, 2) - 6006*std::pow(-xi_3 + 1, 2)*std::pow(-2*xi_2 - xi_3 + 1, 6) + 4862*(-xi_3 + 1)*std::pow(-2*xi_2 - xi_3 + 1, 7) + 98*std::pow(xi_3 - 1, 8) + 5005*std::pow(xi_3 - 1, 4)*std::pow(-2*xi_2 - xi_3 + 1, 4) + 3003*std::pow(xi_3 - 1, 3)*std::pow(-2*xi_2 - xi_3 + 1, 5))/(xi_3 - 1);
  183 => (1/128)*(2*xi_1 + xi_2 + xi_3 - 1)*(1680*xi_2*std::pow(xi_3 - 1, 7) + 13832*std::pow(-xi_3 + 1, 5)*std::pow(2*xi_2 + xi_3 - 1, 3) - 30940*std::pow(-xi_3 + 1, 2)*std::pow(2*xi_2 + xi_3 - 1, 6) + 47736*(-xi_3 + 1)*std::pow(2*xi_2 + xi_3 - 1, 7) + 791*std::pow(xi_3 - 1, 8) + 1092*std::pow(xi_3 - 1, 6)*std::pow(2*xi_2 + xi_3 - 1, 2) + 2730*std::pow(xi_3 - 1, 4)*std::pow(2*xi_2 + xi_3 - 1, 4) + 50232*std::pow(xi_3 - 1, 3)*std::pow(2*xi_2 + xi_3 - 1, 5) + 37791*std::pow(2*xi_2 + xi_3 - 1, 8));
  184 => (1/32)*(-std::pow(xi_2 + xi_3 - 1, 2) + 3*std::pow(2*xi_1 + xi_2 + xi_3 - 1, 2))*(616*xi_3 + 9690*std::pow(2*xi_3 - 1, 7) + 20349*std::pow(2*xi_3 - 1, 6) + 8568*std::pow(2*xi_3 - 1, 5) - 6545*std::pow(2*xi_3 - 1, 4) - 4830*std::pow(2*xi_3 - 1, 3) - 105*std::pow(2*xi_3 - 1, 2) - 287);
  185 => (1/16)*(-std::pow(xi_2 + xi_3 - 1, 2) + 3*std::pow(2*xi_1 + xi_2 + xi_3 - 1, 2))*(7*xi_2 + xi_3 - 1)*(-600*xi_3 + 4845*std::pow(2*xi_3 - 1, 6) + 11628*std::pow(2*xi_3 - 1, 5) + 8415*std::pow(2*xi_3 - 1, 4) + 680*std::pow(2*xi_3 - 1, 3) - 1245*std::pow(2*xi_3 - 1, 2) + 301);
  186 => (std::pow(xi_2 + xi_3 - 1, 2) - 3*std::pow(2*xi_1 + xi_2 + xi_3 - 1, 2))*(20*xi_2*std::pow(xi_3 - 1, 2) + 8*std::pow(xi_3 - 1, 3) - 9*(xi_3 - 1)*std::pow(2*xi_2 + xi_3 - 1, 2))*(-20*xi_3 + 1938*std::pow(2*xi_3 - 1, 5) + 4845*std::pow(2*xi_3 - 1, 4) + 4080*std::pow(2*xi_3 - 1, 3) + 1190*std::pow(2*xi_3 - 1, 2) - 21)/(8*xi_3 - 8);
  187 => (1/256)*(-std::pow(xi_2 + xi_3 - 1, 2) + 3*std::pow(2*xi_1 + xi_2 + xi_3 - 1, 2))*(126*xi_2*std::pow(xi_3 - 1, 3) - 225*std::pow(-xi_3 + 1, 2)*std::pow(-2*xi_2 - xi_3 + 1, 2) + 165*(-xi_3 + 1)*std::pow(-2*xi_2 - xi_3 + 1, 3) + 68*std::pow(xi_3 - 1, 4))*(5848*xi_3 + 4845*std::pow(2*xi_3 - 1, 4) + 11628*std::pow(2*xi_3 - 1, 3) + 9486*std::pow(2*xi_3 - 1, 2) - 2687)/(xi_3 - 1);
  188 => (1/128)*(-std::pow(xi_2 + xi_3 - 1, 2) + 3*std::pow(2*xi_1 + xi_2 + xi_3 - 1, 2))*(1584*xi_3 + 570*std::pow(2*xi_3 - 1, 3) + 1197*std::pow(2*xi_3 - 1, 2) - 631)*(200*xi_2*std::pow(xi_3 - 1, 3) + 71*std::pow(xi_3 - 1, 4) + 330*std::pow(xi_3 - 1, 2)*std::pow(2*xi_2 + xi_3 - 1, 2) - 1100*(xi_3 - 1)*std::pow(2*xi_2 + xi_3 - 1, 3) + 715*std::pow(2*xi_2 + xi_3 - 1, 4));
  189 => (std::pow(xi_2 + xi_3 - 1, 2) - 3*std::pow(2*xi_1 + xi_2 + xi_3 - 1, 2))*(304*xi_3 + 95*std::pow(2*xi_3 - 1, 2) - 93)*(770*xi_2*std::pow(xi_3 - 1, 5) + 386*std::pow(xi_3 - 1, 6) - 990*std::pow(xi_3 - 1, 4)*std::pow(2*xi_2 + xi_3 - 1, 2) - 1430*std::pow(xi_3 - 1, 3)*std::pow(2*xi_2 + xi_3 - 1, 3) + 5005*std::pow(xi_3 - 1, 2)*std::pow(2*xi_2 + xi_3 - 1, 4) - 3003*(xi_3 - 1)*std::pow(2*xi_2 + xi_3 - 1, 5))/(128*xi_3 - 128);
  190 => (1/32)*(20*xi_3 - 1)*(std::pow(xi_2 + xi_3 - 1, 2) - 3*std::pow(2*xi_1 + xi_2 + xi_3 - 1, 2))*(96*xi_2*std::pow(xi_3 - 1, 5) + 23*std::pow(xi_3 - 1, 6) + 780*std::pow(xi_3 - 1, 4)*std::pow(2*xi_2 + xi_3 - 1, 2) - 1820*std::pow(xi_3 - 1, 3)*std::pow(2*xi_2 + xi_3 - 1, 3) - 1365*std::pow(xi_3 - 1, 2)*std::pow(2*xi_2 + xi_3 - 1, 4) + 5460*(xi_3 - 1)*std::pow(2*xi_2 + xi_3 - 1, 5) - 3094*std::pow(2*xi_2 + xi_3 - 1, 6));
  191 => (1/64)*(-std::pow(xi_2 + xi_3 - 1, 2) + 3*std::pow(2*xi_1 + xi_2 + xi_3 - 1, 2))*(910*xi_2*std::pow(xi_3 - 1, 7) - 819*std::pow(-xi_3 + 1, 6)*std::pow(-2*xi_2 - xi_3 + 1, 2) + 4641*std::pow(-xi_3 + 1, 3)*std::pow(-2*xi_2 - xi_3 + 1, 5) - 23205*std::pow(-xi_3 + 1, 2)*std::pow(-2*xi_2 - xi_3 + 1, 6) + 12597*(-xi_3 + 1)*std::pow(-2*xi_2 - xi_3 + 1, 7) + 448*std::pow(xi_3 - 1, 8) + 5005*std::pow(xi_3 - 1, 5)*std::pow(-2*xi_2 - xi_3 + 1, 3) + 11375*std::pow(xi_3 - 1, 4)*std::pow(-2*xi_2 - xi_3 + 1, 4))/(xi_3 - 1);
  192 => -(6*xi_1*std::pow(xi_2 + xi_3 - 1, 3) + 3*std::pow(xi_2 + xi_3 - 1, 4) - 5*(xi_2 + xi_3 - 1)*std::pow(2*xi_1 + xi_2 + xi_3 - 1, 3))*(-600*xi_3 + 4845*std::pow(2*xi_3 - 1, 6) + 11628*std::pow(2*xi_3 - 1, 5) + 8415*std::pow(2*xi_3 - 1, 4) + 680*std::pow(2*xi_3 - 1, 3) - 1245*std::pow(2*xi_3 - 1, 2) + 301)/(16*xi_2 + 16*xi_3 - 16);
  193 => (1/8)*(9*xi_2 + xi_3 - 1)*(6*xi_1*std::pow(xi_2 + xi_3 - 1, 3) + 5*(-xi_2 - xi_3 + 1)*std::pow(2*xi_1 + xi_2 + xi_3 - 1, 3) + 3*std::pow(xi_2 + xi_3 - 1, 4))*(-20*xi_3 + 1938*std::pow(2*xi_3 - 1, 5) + 4845*std::pow(2*xi_3 - 1, 4) + 4080*std::pow(2*xi_3 - 1, 3) + 1190*std::pow(2*xi_3 - 1, 2) - 21)/(-xi_2 - xi_3 + 1);
  194 => (1/128)*(6*xi_1*std::pow(xi_2 + xi_3 - 1, 3) + 5*(-xi_2 - xi_3 + 1)*std::pow(2*xi_1 + xi_2 + xi_3 - 1, 3) + 3*std::pow(xi_2 + xi_3 - 1, 4))*(140*xi_2*std::pow(xi_3 - 1, 2) + 55*(-xi_3 + 1)*std::pow(-2*xi_2 - xi_3 + 1, 2) + 51*std::pow(xi_3 - 1, 3))*(5848*xi_3 + 4845*std::pow(2*xi_3 - 1, 4) + 11628*std::pow(2*xi_3 - 1, 3) + 9486*std::pow(2*xi_3 - 1, 2) - 2687)/((xi_3 - 1)*(xi_2 + xi_3 - 1));
  195 => -(6*xi_1*std::pow(xi_2 + xi_3 - 1, 3) + 3*std::pow(xi_2 + xi_3 - 1, 4) - 5*(xi_2 + xi_3 - 1)*std::pow(2*xi_1 + xi_2 + xi_3 - 1, 3))*(1584*xi_3 + 570*std::pow(2*xi_3 - 1, 3) + 1197*std::pow(2*xi_3 - 1, 2) - 631)*(198*xi_2*std::pow(xi_3 - 1, 2) + 92*std::pow(xi_3 - 1, 3) - 231*(xi_3 - 1)*std::pow(2*xi_2 + xi_3 - 1, 2) + 143*std::pow(2*xi_2 + xi_3 - 1, 3))/(32*xi_2 + 32*xi_3 - 32);
  196 => (304*xi_3 + 95*std::pow(2*xi_3 - 1, 2) - 93)*(6*xi_1*std::pow(xi_2 + xi_3 - 1, 3) + 3*std::pow(xi_2 + xi_3 - 1, 4) - 5*(xi_2 + xi_3 - 1)*std::pow(2*xi_1 + xi_2 + xi_3 - 1, 3))*(168*xi_2*std::pow(xi_3 - 1, 3) + 127*std::pow(xi_3 - 1, 4) - 1326*std::pow(xi_3 - 1, 2)*std::pow(2*xi_2 + xi_3 - 1, 2) + 2548*(xi_3 - 1)*std::pow(2*xi_2 + xi_3 - 1, 3) - 1365*std::pow(2*xi_2 + xi_3 - 1, 4))/(64*xi_2 + 64*xi_3 - 64);
  197 => (1/16)*(20*xi_3 - 1)*(6*xi_1*std::pow(xi_2 + xi_3 - 1, 3) + 5*(-xi_2 - xi_3 + 1)*std::pow(2*xi_1 + xi_2 + xi_3 - 1, 3) + 3*std::pow(xi_2 + xi_3 - 1, 4))*(390*xi_2*std::pow(xi_3 - 1, 5) + 1820*std::pow(-xi_3 + 1, 3)*std::pow(2*xi_2 + xi_3 - 1, 3) + 1547*(-xi_3 + 1)*std::pow(2*xi_2 + xi_3 - 1, 5) + 174*std::pow(xi_3 - 1, 6) + 3185*std::pow(xi_3 - 1, 2)*std::pow(2*xi_2 + xi_3 - 1, 4))/((xi_3 - 1)*(xi_2 + xi_3 - 1));
  198 => -(6*xi_1*std::pow(xi_2 + xi_3 - 1, 3) + 3*std::pow(xi_2 + xi_3 - 1, 4) - 5*(xi_2 + xi_3 - 1)*std::pow(2*xi_1 + xi_2 + xi_3 - 1, 3))*(588*xi_2*std::pow(xi_3 - 1, 5) + 317*std::pow(xi_3 - 1, 6) - 1995*std::pow(xi_3 - 1, 4)*std::pow(2*xi_2 + xi_3 - 1, 2) + 980*std::pow(xi_3 - 1, 3)*std::pow(2*xi_2 + xi_3 - 1, 3) + 8925*std::pow(xi_3 - 1, 2)*std::pow(2*xi_2 + xi_3 - 1, 4) - 14994*(xi_3 - 1)*std::pow(2*xi_2 + xi_3 - 1, 5) + 6783*std::pow(2*xi_2 + xi_3 - 1, 6))/(32*xi_2 + 32*xi_3 - 32);
  199 => (1/32)*(3*std::pow(xi_2 + xi_3 - 1, 4) - 30*std::pow(xi_2 + xi_3 - 1, 2)*std::pow(2*xi_1 + xi_2 + xi_3 - 1, 2) + 35*std::pow(2*xi_1 + xi_2 + xi_3 - 1, 4))*(-20*xi_3 + 1938*std::pow(2*xi_3 - 1, 5) + 4845*std::pow(2*xi_3 - 1, 4) + 4080*std::pow(2*xi_3 - 1, 3) + 1190*std::pow(2*xi_3 - 1, 2) - 21);
  200 => (1/128)*(11*xi_2 + xi_3 - 1)*(3*std::pow(xi_2 + xi_3 - 1, 4) - 30*std::pow(xi_2 + xi_3 - 1, 2)*std::pow(2*xi_1 + xi_2 + xi_3 - 1, 2) + 35*std::pow(2*xi_1 + xi_2 + xi_3 - 1, 4))*(5848*xi_3 + 4845*std::pow(2*xi_3 - 1, 4) + 11628*std::pow(2*xi_3 - 1, 3) + 9486*std::pow(2*xi_3 - 1, 2) - 2687);
  201 => -(108*xi_2*std::pow(xi_3 - 1, 2) + 37*std::pow(xi_3 - 1, 3) - 39*(xi_3 - 1)*std::pow(2*xi_2 + xi_3 - 1, 2))*(3*std::pow(xi_2 + xi_3 - 1, 4) - 30*std::pow(xi_2 + xi_3 - 1, 2)*std::pow(2*xi_1 + xi_2 + xi_3 - 1, 2) + 35*std::pow(2*xi_1 + xi_2 + xi_3 - 1, 4))*(1584*xi_3 + 570*std::pow(2*xi_3 - 1, 3) + 1197*std::pow(2*xi_3 - 1, 2) - 631)/(64*xi_3 - 64);
  202 => (1/128)*(304*xi_3 + 95*std::pow(2*xi_3 - 1, 2) - 93)*(3*std::pow(xi_2 + xi_3 - 1, 4) - 30*std::pow(xi_2 + xi_3 - 1, 2)*std::pow(2*xi_1 + xi_2 + xi_3 - 1, 2) + 35*std::pow(2*xi_1 + xi_2 + xi_3 - 1, 4))*(858*xi_2*std::pow(xi_3 - 1, 3) - 819*std::pow(-xi_3 + 1, 2)*std::pow(-2*xi_2 - xi_3 + 1, 2) + 455*(-xi_3 + 1)*std::pow(-2*xi_2 - xi_3 + 1, 3) + 372*std::pow(xi_3 - 1, 4))/(xi_3 - 1);
  203 => (1/32)*(20*xi_3 - 1)*(3*std::pow(xi_2 + xi_3 - 1, 4) - 30*std::pow(xi_2 + xi_3 - 1, 2)*std::pow(2*xi_1 + xi_2 + xi_3 - 1, 2) + 35*std::pow(2*xi_1 + xi_2 + xi_3 - 1, 4))*(-336*xi_2*std::pow(xi_3 - 1, 3) - 171*std::pow(xi_3 - 1, 4) + 840*std::pow(xi_3 - 1, 2)*std::pow(2*xi_2 + xi_3 - 1, 2) - 1260*(xi_3 - 1)*std::pow(2*xi_2 + xi_3 - 1, 3) + 595*std::pow(2*xi_2 + xi_3 - 1, 4));
  204 => -(3*std::pow(xi_2 + xi_3 - 1, 4) - 30*std::pow(xi_2 + xi_3 - 1, 2)*std::pow(2*xi_1 + xi_2 + xi_3 - 1, 2) + 35*std::pow(2*xi_1 + xi_2 + xi_3 - 1, 4))*(330*xi_2*std::pow(xi_3 - 1, 5) + 114*std::pow(xi_3 - 1, 6) + 1170*std::pow(xi_3 - 1, 4)*std::pow(2*xi_2 + xi_3 - 1, 2) - 5270*std::pow(xi_3 - 1, 3)*std::pow(2*xi_2 + xi_3 - 1, 3) + 6885*std::pow(xi_3 - 1, 2)*std::pow(2*xi_2 + xi_3 - 1, 4) - 2907*(xi_3 - 1)*std::pow(2*xi_2 + xi_3 - 1, 5))/(64*xi_3 - 64);
  205 => (1/128)*(30*xi_1*std::pow(xi_2 + xi_3 - 1, 5) + 63*(-xi_2 - xi_3 + 1)*std::pow(-2*xi_1 - xi_2 - xi_3 + 1, 5) + 15*std::pow(xi_2 + xi_3 - 1, 6) + 70*std::pow(xi_2 + xi_3 - 1, 3)*std::pow(-2*xi_1 - xi_2 - xi_3 + 1, 3))*(5848*xi_3 + 4845*std::pow(2*xi_3 - 1, 4) + 11628*std::pow(2*xi_3 - 1, 3) + 9486*std::pow(2*xi_3 - 1, 2) - 2687)/(xi_2 + xi_3 - 1);
  206 => (1/32)*(13*xi_2 + xi_3 - 1)*(1584*xi_3 + 570*std::pow(2*xi_3 - 1, 3) + 1197*std::pow(2*xi_3 - 1, 2) - 631)*(30*xi_1*std::pow(xi_2 + xi_3 - 1, 5) + 63*(-xi_2 - xi_3 + 1)*std::pow(-2*xi_1 - xi_2 - xi_3 + 1, 5) + 15*std::pow(xi_2 + xi_3 - 1, 6) + 70*std::pow(xi_2 + xi_3 - 1, 3)*std::pow(-2*xi_1 - xi_2 - xi_3 + 1, 3))/(xi_2 + xi_3 - 1);
  207 => -1/64*(304*xi_3 + 95*std::pow(2*xi_3 - 1, 2) - 93)*(308*xi_2*std::pow(xi_3 - 1, 2) + 101*std::pow(xi_3 - 1, 3) - 105*(xi_3 - 1)*std::pow(2*xi_2 + xi_3 - 1, 2))*(30*xi_1*std::pow(xi_2 + xi_3 - 1, 5) + 15*std::pow(xi_2 + xi_3 - 1, 6) - 70*std::pow(xi_2 + xi_3 - 1, 3)*std::pow(2*xi_1 + xi_2 + xi_3 - 1, 3) + 63*(xi_2 + xi_3 - 1)*std::pow(2*xi_1 + xi_2 + xi_3 - 1, 5))/((xi_3 - 1)*(xi_2 + xi_3 - 1));
  208 => (1/8)*(20*xi_3 - 1)*(30*xi_1*std::pow(xi_2 + xi_3 - 1, 5) + 63*(-xi_2 - xi_3 + 1)*std::pow(-2*xi_1 - xi_2 - xi_3 + 1, 5) + 15*std::pow(xi_2 + xi_3 - 1, 6) + 70*std::pow(xi_2 + xi_3 - 1, 3)*std::pow(-2*xi_1 - xi_2 - xi_3 + 1, 3))*(195*xi_2*std::pow(xi_3 - 1, 2) + 81*std::pow(xi_3 - 1, 3) - 165*(xi_3 - 1)*std::pow(-2*xi_2 - xi_3 + 1, 2) - 85*std::pow(-2*xi_2 - xi_3 + 1, 3))/(xi_2 + xi_3 - 1);
  209 => (1/32)*(30*xi_1*std::pow(xi_2 + xi_3 - 1, 5) + 63*(-xi_2 - xi_3 + 1)*std::pow(-2*xi_1 - xi_2 - xi_3 + 1, 5) + 15*std::pow(xi_2 + xi_3 - 1, 6) + 70*std::pow(xi_2 + xi_3 - 1, 3)*std::pow(-2*xi_1 - xi_2 - xi_3 + 1, 3))*(-968*xi_2*std::pow(xi_3 - 1, 3) - 455*std::pow(xi_3 - 1, 4) + 1734*std::pow(xi_3 - 1, 2)*std::pow(2*xi_2 + xi_3 - 1, 2) - 2244*(xi_3 - 1)*std::pow(2*xi_2 + xi_3 - 1, 3) + 969*std::pow(2*xi_2 + xi_3 - 1, 4))/(xi_2 + xi_3 - 1);
  210 => (1/64)*(1584*xi_3 + 570*std::pow(2*xi_3 - 1, 3) + 1197*std::pow(2*xi_3 - 1, 2) - 631)*(-5*std::pow(xi_2 + xi_3 - 1, 6) + 105*std::pow(xi_2 + xi_3 - 1, 4)*std::pow(2*xi_1 + xi_2 + xi_3 - 1, 2) - 315*std::pow(xi_2 + xi_3 - 1, 2)*std::pow(2*xi_1 + xi_2 + xi_3 - 1, 4) + 231*std::pow(2*xi_1 + xi_2 + xi_3 - 1, 6));
  211 => (1/32)*(15*xi_2 + xi_3 - 1)*(304*xi_3 + 95*std::pow(2*xi_3 - 1, 2) - 93)*(-5*std::pow(xi_2 + xi_3 - 1, 6) + 105*std::pow(xi_2 + xi_3 - 1, 4)*std::pow(2*xi_1 + xi_2 + xi_3 - 1, 2) - 315*std::pow(xi_2 + xi_3 - 1, 2)*std::pow(2*xi_1 + xi_2 + xi_3 - 1, 4) + 231*std::pow(2*xi_1 + xi_2 + xi_3 - 1, 6));
  212 => (20*xi_3 - 1)*(104*xi_2*std::pow(xi_3 - 1, 2) + 33*std::pow(xi_3 - 1, 3) - 34*(xi_3 - 1)*std::pow(2*xi_2 + xi_3 - 1, 2))*(5*std::pow(xi_2 + xi_3 - 1, 6) - 105*std::pow(xi_2 + xi_3 - 1, 4)*std::pow(2*xi_1 + xi_2 + xi_3 - 1, 2) + 315*std::pow(xi_2 + xi_3 - 1, 2)*std::pow(2*xi_1 + xi_2 + xi_3 - 1, 4) - 231*std::pow(2*xi_1 + xi_2 + xi_3 - 1, 6))/(16*xi_3 - 16);
  213 => (1/128)*(2550*xi_2*std::pow(xi_3 - 1, 3) - 1989*std::pow(-xi_3 + 1, 2)*std::pow(-2*xi_2 - xi_3 + 1, 2) + 969*(-xi_3 + 1)*std::pow(-2*xi_2 - xi_3 + 1, 3) + 1028*std::pow(xi_3 - 1, 4))*(-5*std::pow(xi_2 + xi_3 - 1, 6) + 105*std::pow(xi_2 + xi_3 - 1, 4)*std::pow(2*xi_1 + xi_2 + xi_3 - 1, 2) - 315*std::pow(xi_2 + xi_3 - 1, 2)*std::pow(2*xi_1 + xi_2 + xi_3 - 1, 4) + 231*std::pow(2*xi_1 + xi_2 + xi_3 - 1, 6))/(xi_3 - 1);
  214 => -(304*xi_3 + 95*std::pow(2*xi_3 - 1, 2) - 93)*(70*xi_1*std::pow(xi_2 + xi_3 - 1, 7) + 35*std::pow(xi_2 + xi_3 - 1, 8) - 315*std::pow(xi_2 + xi_3 - 1, 5)*std::pow(2*xi_1 + xi_2 + xi_3 - 1, 3) + 693*std::pow(xi_2 + xi_3 - 1, 3)*std::pow(2*xi_1 + xi_2 + xi_3 - 1, 5) - 429*(xi_2 + xi_3 - 1)*std::pow(2*xi_1 + xi_2 + xi_3 - 1, 7))/(32*xi_2 + 32*xi_3 - 32);
  215 => -(20*xi_3 - 1)*(17*xi_2 + xi_3 - 1)*(70*xi_1*std::pow(xi_2 + xi_3 - 1, 7) + 35*std::pow(xi_2 + xi_3 - 1, 8) - 315*std::pow(xi_2 + xi_3 - 1, 5)*std::pow(2*xi_1 + xi_2 + xi_3 - 1, 3) + 693*std::pow(xi_2 + xi_3 - 1, 3)*std::pow(2*xi_1 + xi_2 + xi_3 - 1, 5) - 429*(xi_2 + xi_3 - 1)*std::pow(2*xi_1 + xi_2 + xi_3 - 1, 7))/(16*xi_2 + 16*xi_3 - 16);
  216 => (1/64)*(540*xi_2*std::pow(xi_3 - 1, 2) + 171*(-xi_3 + 1)*std::pow(-2*xi_2 - xi_3 + 1, 2) + 167*std::pow(xi_3 - 1, 3))*(70*xi_1*std::pow(xi_2 + xi_3 - 1, 7) + 315*std::pow(-xi_2 - xi_3 + 1, 5)*std::pow(2*xi_1 + xi_2 + xi_3 - 1, 3) + 429*(-xi_2 - xi_3 + 1)*std::pow(2*xi_1 + xi_2 + xi_3 - 1, 7) + 35*std::pow(xi_2 + xi_3 - 1, 8) + 693*std::pow(xi_2 + xi_3 - 1, 3)*std::pow(2*xi_1 + xi_2 + xi_3 - 1, 5))/((xi_3 - 1)*(xi_2 + xi_3 - 1));
  217 => (1/128)*(20*xi_3 - 1)*(35*std::pow(xi_2 + xi_3 - 1, 8) - 1260*std::pow(xi_2 + xi_3 - 1, 6)*std::pow(2*xi_1 + xi_2 + xi_3 - 1, 2) + 6930*std::pow(xi_2 + xi_3 - 1, 4)*std::pow(2*xi_1 + xi_2 + xi_3 - 1, 4) - 12012*std::pow(xi_2 + xi_3 - 1, 2)*std::pow(2*xi_1 + xi_2 + xi_3 - 1, 6) + 6435*std::pow(2*xi_1 + xi_2 + xi_3 - 1, 8));
  218 => (1/128)*(19*xi_2 + xi_3 - 1)*(35*std::pow(xi_2 + xi_3 - 1, 8) - 1260*std::pow(xi_2 + xi_3 - 1, 6)*std::pow(2*xi_1 + xi_2 + xi_3 - 1, 2) + 6930*std::pow(xi_2 + xi_3 - 1, 4)*std::pow(2*xi_1 + xi_2 + xi_3 - 1, 4) - 12012*std::pow(xi_2 + xi_3 - 1, 2)*std::pow(2*xi_1 + xi_2 + xi_3 - 1, 6) + 6435*std::pow(2*xi_1 + xi_2 + xi_3 - 1, 8));
  219 => (1/128)*(630*xi_1*std::pow(xi_2 + xi_3 - 1, 9) + 18018*std::pow(-xi_2 - xi_3 + 1, 5)*std::pow(-2*xi_1 - xi_2 - xi_3 + 1, 5) + 12155*(-xi_2 - xi_3 + 1)*std::pow(-2*xi_1 - xi_2 - xi_3 + 1, 9) + 315*std::pow(xi_2 + xi_3 - 1, 10) + 4620*std::pow(xi_2 + xi_3 - 1, 7)*std::pow(-2*xi_1 - xi_2 - xi_3 + 1, 3) + 25740*std::pow(xi_2 + xi_3 - 1, 3)*std::pow(-2*xi_1 - xi_2 - xi_3 + 1, 7))/(xi_2 + xi_3 - 1);
  220 => 646646*std::pow(xi_3, 10) - 2939300*std::pow(xi_3, 9) + 5668650*std::pow(xi_3, 8) - 6046560*std::pow(xi_3, 7) + 3898440*std::pow(xi_3, 6) - 1559376*std::pow(xi_3, 5) + 382200*std::pow(xi_3, 4) - 54600*std::pow(xi_3, 3) + 4095*std::pow(xi_3, 2) - 130*xi_3 + 1;
  221 => -1/128*(3*xi_2 + xi_3 - 1)*(2394*xi_3 - 124355*std::pow(2*xi_3 - 1, 9) - 203490*std::pow(2*xi_3 - 1, 8) + 58140*std::pow(2*xi_3 - 1, 7) + 217056*std::pow(2*xi_3 - 1, 6) + 36414*std::pow(2*xi_3 - 1, 5) - 64260*std::pow(2*xi_3 - 1, 4) - 17220*std::pow(2*xi_3 - 1, 3) + 5040*std::pow(2*xi_3 - 1, 2) - 1239);
  222 => -(4*xi_2*std::pow(xi_3 - 1, 2) + 3*std::pow(xi_3 - 1, 3) - 5*(xi_3 - 1)*std::pow(2*xi_2 + xi_3 - 1, 2))*(2640*xi_3 + 159885*std::pow(2*xi_3 - 1, 8) + 348840*std::pow(2*xi_3 - 1, 7) + 135660*std::pow(2*xi_3 - 1, 6) - 162792*std::pow(2*xi_3 - 1, 5) - 117810*std::pow(2*xi_3 - 1, 4) + 4760*std::pow(2*xi_3 - 1, 3) + 14700*std::pow(2*xi_3 - 1, 2) - 1499)/(256*xi_3 - 256);
  223 => -(30*xi_2*std::pow(xi_3 - 1, 3) + 12*std::pow(xi_3 - 1, 4) + 15*std::pow(xi_3 - 1, 2)*std::pow(2*xi_2 + xi_3 - 1, 2) - 35*(xi_3 - 1)*std::pow(2*xi_2 + xi_3 - 1, 3))*(182*xi_3 + 10659*std::pow(2*xi_3 - 1, 7) + 27132*std::pow(2*xi_3 - 1, 6) + 20349*std::pow(2*xi_3 - 1, 5) - 5355*std::pow(2*xi_3 - 1, 3) - 1428*std::pow(2*xi_3 - 1, 2) - 59)/(64*xi_3 - 64);
  224 => (1/512)*(24*xi_2*std::pow(xi_3 - 1, 3) + 15*std::pow(xi_3 - 1, 4) - 42*std::pow(xi_3 - 1, 2)*std::pow(2*xi_2 + xi_3 - 1, 2) - 28*(xi_3 - 1)*std::pow(2*xi_2 + xi_3 - 1, 3) + 63*std::pow(2*xi_2 + xi_3 - 1, 4))*(-10812*xi_3 + 74613*std::pow(2*xi_3 - 1, 6) + 203490*std::pow(2*xi_3 - 1, 5) + 188955*std::pow(2*xi_3 - 1, 4) + 58140*std::pow(2*xi_3 - 1, 3) - 6885*std::pow(2*xi_3 - 1, 2) + 5011);
  225 => (1/256)*(3150*xi_3 + 13167*std::pow(2*xi_3 - 1, 5) + 35910*std::pow(2*xi_3 - 1, 4) + 34770*std::pow(2*xi_3 - 1, 3) + 13680*std::pow(2*xi_3 - 1, 2) - 1669)*(70*xi_2*std::pow(xi_3 - 1, 5) - 105*std::pow(-xi_3 + 1, 2)*std::pow(-2*xi_2 - xi_3 + 1, 4) + 231*(-xi_3 + 1)*std::pow(-2*xi_2 - xi_3 + 1, 5) + 30*std::pow(xi_3 - 1, 6) + 70*std::pow(xi_3 - 1, 4)*std::pow(-2*xi_2 - xi_3 + 1, 2) + 210*std::pow(xi_3 - 1, 3)*std::pow(-2*xi_2 - xi_3 + 1, 3))/(xi_3 - 1);
  226 => -(11704*xi_3 + 7315*std::pow(2*xi_3 - 1, 4) + 18620*std::pow(2*xi_3 - 1, 3) + 16530*std::pow(2*xi_3 - 1, 2) - 5209)*(60*xi_2*std::pow(xi_3 - 1, 6) + 35*std::pow(xi_3 - 1, 7) - 135*std::pow(xi_3 - 1, 5)*std::pow(2*xi_2 + xi_3 - 1, 2) - 180*std::pow(xi_3 - 1, 4)*std::pow(2*xi_2 + xi_3 - 1, 3) + 495*std::pow(xi_3 - 1, 3)*std::pow(2*xi_2 + xi_3 - 1, 4) + 198*std::pow(xi_3 - 1, 2)*std::pow(2*xi_2 + xi_3 - 1, 5) - 429*(xi_3 - 1)*std::pow(2*xi_2 + xi_3 - 1, 6))/(256*xi_3 - 256);
  227 => -(1170*xi_3 + 385*std::pow(2*xi_3 - 1, 3) + 840*std::pow(2*xi_3 - 1, 2) - 457)*(630*xi_2*std::pow(xi_3 - 1, 7) + 280*std::pow(xi_3 - 1, 8) + 945*std::pow(xi_3 - 1, 6)*std::pow(2*xi_2 + xi_3 - 1, 2) - 3465*std::pow(xi_3 - 1, 5)*std::pow(2*xi_2 + xi_3 - 1, 3) - 3465*std::pow(xi_3 - 1, 4)*std::pow(2*xi_2 + xi_3 - 1, 4) + 9009*std::pow(xi_3 - 1, 3)*std::pow(2*xi_2 + xi_3 - 1, 5) + 3003*std::pow(xi_3 - 1, 2)*std::pow(2*xi_2 + xi_3 - 1, 6) - 6435*(xi_3 - 1)*std::pow(2*xi_2 + xi_3 - 1, 7))/(256*xi_3 - 256);
  228 => (1/512)*(756*xi_3 + 231*std::pow(2*xi_3 - 1, 2) - 227)*(560*xi_2*std::pow(xi_3 - 1, 7) - 1540*std::pow(-xi_3 + 1, 6)*std::pow(2*xi_2 + xi_3 - 1, 2) + 3080*std::pow(-xi_3 + 1, 5)*std::pow(2*xi_2 + xi_3 - 1, 3) - 20020*std::pow(-xi_3 + 1, 2)*std::pow(2*xi_2 + xi_3 - 1, 6) + 5720*(-xi_3 + 1)*std::pow(2*xi_2 + xi_3 - 1, 7) + 315*std::pow(xi_3 - 1, 8) + 10010*std::pow(xi_3 - 1, 4)*std::pow(2*xi_2 + xi_3 - 1, 4) + 8008*std::pow(xi_3 - 1, 3)*std::pow(2*xi_2 + xi_3 - 1, 5) + 12155*std::pow(2*xi_2 + xi_3 - 1, 8));
  229 => (1/256)*(22*xi_3 - 1)*(1386*xi_2*std::pow(xi_3 - 1, 9) - 18018*std::pow(-xi_3 + 1, 6)*std::pow(-2*xi_2 - xi_3 + 1, 4) + 54054*std::pow(-xi_3 + 1, 5)*std::pow(-2*xi_2 - xi_3 + 1, 5) - 21879*std::pow(-xi_3 + 1, 2)*std::pow(-2*xi_2 - xi_3 + 1, 8) + 46189*(-xi_3 + 1)*std::pow(-2*xi_2 - xi_3 + 1, 9) + 630*std::pow(xi_3 - 1, 10) + 2772*std::pow(xi_3 - 1, 8)*std::pow(-2*xi_2 - xi_3 + 1, 2) + 12012*std::pow(xi_3 - 1, 7)*std::pow(-2*xi_2 - xi_3 + 1, 3) + 36036*std::pow(xi_3 - 1, 4)*std::pow(-2*xi_2 - xi_3 + 1, 6) + 87516*std::pow(xi_3 - 1, 3)*std::pow(-2*xi_2 - xi_3 + 1, 7))/(xi_3 - 1);
  230 => (1/256)*(-1260*xi_2*std::pow(xi_3 - 1, 10) - 4095*std::pow(-xi_3 + 1, 9)*std::pow(-2*xi_2 - xi_3 + 1, 2) + 49140*std::pow(-xi_3 + 1, 6)*std::pow(-2*xi_2 - xi_3 + 1, 5) - 139230*std::pow(-xi_3 + 1, 5)*std::pow(-2*xi_2 - xi_3 + 1, 6) + 41990*std::pow(-xi_3 + 1, 2)*std::pow(-2*xi_2 - xi_3 + 1, 9) - 88179*(-xi_3 + 1)*std::pow(-2*xi_2 - xi_3 + 1, 10) - 693*std::pow(xi_3 - 1, 11) - 10920*std::pow(xi_3 - 1, 8)*std::pow(-2*xi_2 - xi_3 + 1, 3) - 40950*std::pow(xi_3 - 1, 7)*std::pow(-2*xi_2 - xi_3 + 1, 4) - 79560*std::pow(xi_3 - 1, 4)*std::pow(-2*xi_2 - xi_3 + 1, 7) - 188955*std::pow(xi_3 - 1, 3)*std::pow(-2*xi_2 - xi_3 + 1, 8))/(xi_3 - 1);
  231 => -1/128*(2*xi_1 + xi_2 + xi_3 - 1)*(2394*xi_3 - 124355*std::pow(2*xi_3 - 1, 9) - 203490*std::pow(2*xi_3 - 1, 8) + 58140*std::pow(2*xi_3 - 1, 7) + 217056*std::pow(2*xi_3 - 1, 6) + 36414*std::pow(2*xi_3 - 1, 5) - 64260*std::pow(2*xi_3 - 1, 4) - 17220*std::pow(2*xi_3 - 1, 3) + 5040*std::pow(2*xi_3 - 1, 2) - 1239);
  232 => (1/128)*(5*xi_2 + xi_3 - 1)*(2*xi_1 + xi_2 + xi_3 - 1)*(2640*xi_3 + 159885*std::pow(2*xi_3 - 1, 8) + 348840*std::pow(2*xi_3 - 1, 7) + 135660*std::pow(2*xi_3 - 1, 6) - 162792*std::pow(2*xi_3 - 1, 5) - 117810*std::pow(2*xi_3 - 1, 4) + 4760*std::pow(2*xi_3 - 1, 3) + 14700*std::pow(2*xi_3 - 1, 2) - 1499);
  233 => -(36*xi_2*std::pow(xi_3 - 1, 2) + 17*std::pow(xi_3 - 1, 3) - 21*(xi_3 - 1)*std::pow(2*xi_2 + xi_3 - 1, 2))*(2*xi_1 + xi_2 + xi_3 - 1)*(182*xi_3 + 10659*std::pow(2*xi_3 - 1, 7) + 27132*std::pow(2*xi_3 - 1, 6) + 20349*std::pow(2*xi_3 - 1, 5) - 5355*std::pow(2*xi_3 - 1, 3) - 1428*std::pow(2*xi_3 - 1, 2) - 59)/(32*xi_3 - 32);
  234 => (1/128)*(2*std::pow(xi_3 - 1, 3) - 21*(xi_3 - 1)*std::pow(2*xi_2 + xi_3 - 1, 2) + 21*std::pow(2*xi_2 + xi_3 - 1, 3))*(2*xi_1 + xi_2 + xi_3 - 1)*(-10812*xi_3 + 74613*std::pow(2*xi_3 - 1, 6) + 203490*std::pow(2*xi_3 - 1, 5) + 188955*std::pow(2*xi_3 - 1, 4) + 58140*std::pow(2*xi_3 - 1, 3) - 6885*std::pow(2*xi_3 - 1, 2) + 5011);
  235 => (1/128)*(2*xi_1 + xi_2 + xi_3 - 1)*(88*xi_2*std::pow(xi_3 - 1, 3) + 41*std::pow(xi_3 - 1, 4) - 18*std::pow(xi_3 - 1, 2)*std::pow(2*xi_2 + xi_3 - 1, 2) - 180*(xi_3 - 1)*std::pow(2*xi_2 + xi_3 - 1, 3) + 165*std::pow(2*xi_2 + xi_3 - 1, 4))*(3150*xi_3 + 13167*std::pow(2*xi_3 - 1, 5) + 35910*std::pow(2*xi_3 - 1, 4) + 34770*std::pow(2*xi_3 - 1, 3) + 13680*std::pow(2*xi_3 - 1, 2) - 1669);
  236 => (1/512)*(2*xi_1 + xi_2 + xi_3 - 1)*(11704*xi_3 + 7315*std::pow(2*xi_3 - 1, 4) + 18620*std::pow(2*xi_3 - 1, 3) + 16530*std::pow(2*xi_3 - 1, 2) - 5209)*(-90*xi_2*std::pow(xi_3 - 1, 5) - 70*std::pow(-xi_3 + 1, 6) - 1485*std::pow(-xi_3 + 1, 2)*std::pow(-2*xi_2 - xi_3 + 1, 4) + 1287*(-xi_3 + 1)*std::pow(-2*xi_2 - xi_3 + 1, 5) + 630*std::pow(xi_3 - 1, 4)*std::pow(-2*xi_2 - xi_3 + 1, 2) + 330*std::pow(xi_3 - 1, 3)*std::pow(-2*xi_2 - xi_3 + 1, 3))/(xi_3 - 1);
  237 => -(2*xi_1 + xi_2 + xi_3 - 1)*(1170*xi_3 + 385*std::pow(2*xi_3 - 1, 3) + 840*std::pow(2*xi_3 - 1, 2) - 457)*(780*xi_2*std::pow(xi_3 - 1, 6) + 365*std::pow(xi_3 - 1, 7) + 165*std::pow(xi_3 - 1, 5)*std::pow(2*xi_2 + xi_3 - 1, 2) - 3740*std::pow(xi_3 - 1, 4)*std::pow(2*xi_2 + xi_3 - 1, 3) + 2145*std::pow(xi_3 - 1, 3)*std::pow(2*xi_2 + xi_3 - 1, 4) + 6006*std::pow(xi_3 - 1, 2)*std::pow(2*xi_2 + xi_3 - 1, 5) - 5005*(xi_3 - 1)*std::pow(2*xi_2 + xi_3 - 1, 6))/(128*xi_3 - 128);
  238 => (1/128)*(756*xi_3 + 231*std::pow(2*xi_3 - 1, 2) - 227)*(2*xi_1 + xi_2 + xi_3 - 1)*(154*xi_2*std::pow(xi_3 - 1, 7) - 924*std::pow(-xi_3 + 1, 6)*std::pow(-2*xi_2 - xi_3 + 1, 2) - 6006*std::pow(-xi_3 + 1, 2)*std::pow(-2*xi_2 - xi_3 + 1, 6) + 4862*(-xi_3 + 1)*std::pow(-2*xi_2 - xi_3 + 1, 7) + 98*std::pow(xi_3 - 1, 8) + 5005*std::pow(xi_3 - 1, 4)*std::pow(-2*xi_2 - xi_3 + 1, 4) + 3003*std::pow(xi_3 - 1, 3)*std::pow(-2*xi_2 - xi_3 + 1, 5))/(xi_3 - 1);
  239 => (1/128)*(22*xi_3 - 1)*(2*xi_1 + xi_2 + xi_3 - 1)*(1680*xi_2*std::pow(xi_3 - 1, 7) + 13832*std::pow(-xi_3 + 1, 5)*std::pow(2*xi_2 + xi_3 - 1, 3) - 30940*std::pow(-xi_3 + 1, 2)*std::pow(2*xi_2 + xi_3 - 1, 6) + 47736*(-xi_3 + 1)*std::pow(2*xi_2 + xi_3 - 1, 7) + 791*std::pow(xi_3 - 1, 8) + 1092*std::pow(xi_3 - 1, 6)*std::pow(2*xi_2 + xi_3 - 1, 2) + 2730*std::pow(xi_3 - 1, 4)*std::pow(2*xi_2 + xi_3 - 1, 4) + 50232*std::pow(xi_3 - 1, 3)*std::pow(2*xi_2 + xi_3 - 1, 5) + 37791*std::pow(2*xi_2 + xi_3 - 1, 8));
  240 => -(2*xi_1 + xi_2 + xi_3 - 1)*(1638*xi_2*std::pow(xi_3 - 1, 9) + 966*std::pow(xi_3 - 1, 10) - 9828*std::pow(xi_3 - 1, 8)*std::pow(2*xi_2 + xi_3 - 1, 2) - 5460*std::pow(xi_3 - 1, 7)*std::pow(2*xi_2 + xi_3 - 1, 3) + 90090*std::pow(xi_3 - 1, 6)*std::pow(2*xi_2 + xi_3 - 1, 4) - 27846*std::pow(xi_3 - 1, 5)*std::pow(2*xi_2 + xi_3 - 1, 5) - 241332*std::pow(xi_3 - 1, 4)*std::pow(2*xi_2 + xi_3 - 1, 6) + 151164*std::pow(xi_3 - 1, 3)*std::pow(2*xi_2 + xi_3 - 1, 7) + 188955*std::pow(xi_3 - 1, 2)*std::pow(2*xi_2 + xi_3 - 1, 8) - 146965*(xi_3 - 1)*std::pow(2*xi_2 + xi_3 - 1, 9))/(256*xi_3 - 256);
  241 => (1/256)*(-std::pow(xi_2 + xi_3 - 1, 2) + 3*std::pow(2*xi_1 + xi_2 + xi_3 - 1, 2))*(2640*xi_3 + 159885*std::pow(2*xi_3 - 1, 8) + 348840*std::pow(2*xi_3 - 1, 7) + 135660*std::pow(2*xi_3 - 1, 6) - 162792*std::pow(2*xi_3 - 1, 5) - 117810*std::pow(2*xi_3 - 1, 4) + 4760*std::pow(2*xi_3 - 1, 3) + 14700*std::pow(2*xi_3 - 1, 2) - 1499);
  242 => (1/16)*(-std::pow(xi_2 + xi_3 - 1, 2) + 3*std::pow(2*xi_1 + xi_2 + xi_3 - 1, 2))*(7*xi_2 + xi_3 - 1)*(182*xi_3 + 10659*std::pow(2*xi_3 - 1, 7) + 27132*std::pow(2*xi_3 - 1, 6) + 20349*std::pow(2*xi_3 - 1, 5) - 5355*std::pow(2*xi_3 - 1, 3) - 1428*std::pow(2*xi_3 - 1, 2) - 59);
  243 => (std::pow(xi_2 + xi_3 - 1, 2) - 3*std::pow(2*xi_1 + xi_2 + xi_3 - 1, 2))*(20*xi_2*std::pow(xi_3 - 1, 2) + 8*std::pow(xi_3 - 1, 3) - 9*(xi_3 - 1)*std::pow(2*xi_2 + xi_3 - 1, 2))*(-10812*xi_3 + 74613*std::pow(2*xi_3 - 1, 6) + 203490*std::pow(2*xi_3 - 1, 5) + 188955*std::pow(2*xi_3 - 1, 4) + 58140*std::pow(2*xi_3 - 1, 3) - 6885*std::pow(2*xi_3 - 1, 2) + 5011)/(128*xi_3 - 128);
  244 => (1/256)*(-std::pow(xi_2 + xi_3 - 1, 2) + 3*std::pow(2*xi_1 + xi_2 + xi_3 - 1, 2))*(126*xi_2*std::pow(xi_3 - 1, 3) - 225*std::pow(-xi_3 + 1, 2)*std::pow(-2*xi_2 - xi_3 + 1, 2) + 165*(-xi_3 + 1)*std::pow(-2*xi_2 - xi_3 + 1, 3) + 68*std::pow(xi_3 - 1, 4))*(3150*xi_3 + 13167*std::pow(2*xi_3 - 1, 5) + 35910*std::pow(2*xi_3 - 1, 4) + 34770*std::pow(2*xi_3 - 1, 3) + 13680*std::pow(2*xi_3 - 1, 2) - 1669)/(xi_3 - 1);
  245 => (1/512)*(-std::pow(xi_2 + xi_3 - 1, 2) + 3*std::pow(2*xi_1 + xi_2 + xi_3 - 1, 2))*(11704*xi_3 + 7315*std::pow(2*xi_3 - 1, 4) + 18620*std::pow(2*xi_3 - 1, 3) + 16530*std::pow(2*xi_3 - 1, 2) - 5209)*(200*xi_2*std::pow(xi_3 - 1, 3) + 71*std::pow(xi_3 - 1, 4) + 330*std::pow(xi_3 - 1, 2)*std::pow(2*xi_2 + xi_3 - 1, 2) - 1100*(xi_3 - 1)*std::pow(2*xi_2 + xi_3 - 1, 3) + 715*std::pow(2*xi_2 + xi_3 - 1, 4));
  246 => (std::pow(xi_2 + xi_3 - 1, 2) - 3*std::pow(2*xi_1 + xi_2 + xi_3 - 1, 2))*(1170*xi_3 + 385*std::pow(2*xi_3 - 1, 3) + 840*std::pow(2*xi_3 - 1, 2) - 457)*(770*xi_2*std::pow(xi_3 - 1, 5) + 386*std::pow(xi_3 - 1, 6) - 990*std::pow(xi_3 - 1, 4)*std::pow(2*xi_2 + xi_3 - 1, 2) - 1430*std::pow(xi_3 - 1, 3)*std::pow(2*xi_2 + xi_3 - 1, 3) + 5005*std::pow(xi_3 - 1, 2)*std::pow(2*xi_2 + xi_3 - 1, 4) - 3003*(xi_3 - 1)*std::pow(2*xi_2 + xi_3 - 1, 5))/(128*xi_3 - 128);
  247 => (1/128)*(std::pow(xi_2 + xi_3 - 1, 2) - 3*std::pow(2*xi_1 + xi_2 + xi_3 - 1, 2))*(756*xi_3 + 231*std::pow(2*xi_3 - 1, 2) - 227)*(96*xi_2*std::pow(xi_3 - 1, 5) + 23*std::pow(xi_3 - 1, 6) + 780*std::pow(xi_3 - 1, 4)*std::pow(2*xi_2 + xi_3 - 1, 2) - 1820*std::pow(xi_3 - 1, 3)*std::pow(2*xi_2 + xi_3 - 1, 3) - 1365*std::pow(xi_3 - 1, 2)*std::pow(2*xi_2 + xi_3 - 1, 4) + 5460*(xi_3 - 1)*std::pow(2*xi_2 + xi_3 - 1, 5) - 3094*std::pow(2*xi_2 + xi_3 - 1, 6));
  248 => (1/64)*(22*xi_3 - 1)*(-std::pow(xi_2 + xi_3 - 1, 2) + 3*std::pow(2*xi_1 + xi_2 + xi_3 - 1, 2))*(910*xi_2*std::pow(xi_3 - 1, 7) - 819*std::pow(-xi_3 + 1, 6)*std::pow(-2*xi_2 - xi_3 + 1, 2) + 4641*std::pow(-xi_3 + 1, 3)*std::pow(-2*xi_2 - xi_3 + 1, 5) - 23205*std::pow(-xi_3 + 1, 2)*std::pow(-2*xi_2 - xi_3 + 1, 6) + 12597*(-xi_3 + 1)*std::pow(-2*xi_2 - xi_3 + 1, 7) + 448*std::pow(xi_3 - 1, 8) + 5005*std::pow(xi_3 - 1, 5)*std::pow(-2*xi_2 - xi_3 + 1, 3) + 11375*std::pow(xi_3 - 1, 4)*std::pow(-2*xi_2 - xi_3 + 1, 4))/(xi_3 - 1);
  249 => (1/256)*(-std::pow(xi_2 + xi_3 - 1, 2) + 3*std::pow(2*xi_1 + xi_2 + xi_3 - 1, 2))*(112*xi_2*std::pow(xi_3 - 1, 7) - 119*std::pow(-xi_3 + 1, 8) + 17080*std::pow(-xi_3 + 1, 5)*std::pow(2*xi_2 + xi_3 - 1, 3) - 55930*std::pow(-xi_3 + 1, 4)*std::pow(2*xi_2 + xi_3 - 1, 4) + 193800*(-xi_3 + 1)*std::pow(2*xi_2 + xi_3 - 1, 7) + 9660*std::pow(xi_3 - 1, 6)*std::pow(2*xi_2 + xi_3 - 1, 2) + 128520*std::pow(xi_3 - 1, 3)*std::pow(2*xi_2 + xi_3 - 1, 5) + 27132*std::pow(xi_3 - 1, 2)*std::pow(2*xi_2 + xi_3 - 1, 6) + 101745*std::pow(2*xi_2 + xi_3 - 1, 8));
  250 => -(6*xi_1*std::pow(xi_2 + xi_3 - 1, 3) + 3*std::pow(xi_2 + xi_3 - 1, 4) - 5*(xi_2 + xi_3 - 1)*std::pow(2*xi_1 + xi_2 + xi_3 - 1, 3))*(182*xi_3 + 10659*std::pow(2*xi_3 - 1, 7) + 27132*std::pow(2*xi_3 - 1, 6) + 20349*std::pow(2*xi_3 - 1, 5) - 5355*std::pow(2*xi_3 - 1, 3) - 1428*std::pow(2*xi_3 - 1, 2) - 59)/(16*xi_2 + 16*xi_3 - 16);
  251 => (1/128)*(9*xi_2 + xi_3 - 1)*(6*xi_1*std::pow(xi_2 + xi_3 - 1, 3) + 5*(-xi_2 - xi_3 + 1)*std::pow(2*xi_1 + xi_2 + xi_3 - 1, 3) + 3*std::pow(xi_2 + xi_3 - 1, 4))*(-10812*xi_3 + 74613*std::pow(2*xi_3 - 1, 6) + 203490*std::pow(2*xi_3 - 1, 5) + 188955*std::pow(2*xi_3 - 1, 4) + 58140*std::pow(2*xi_3 - 1, 3) - 6885*std::pow(2*xi_3 - 1, 2) + 5011)/(-xi_2 - xi_3 + 1);
  252 => (1/128)*(6*xi_1*std::pow(xi_2 + xi_3 - 1, 3) + 5*(-xi_2 - xi_3 + 1)*std::pow(2*xi_1 + xi_2 + xi_3 - 1, 3) + 3*std::pow(xi_2 + xi_3 - 1, 4))*(140*xi_2*std::pow(xi_3 - 1, 2) + 55*(-xi_3 + 1)*std::pow(-2*xi_2 - xi_3 + 1, 2) + 51*std::pow(xi_3 - 1, 3))*(3150*xi_3 + 13167*std::pow(2*xi_3 - 1, 5) + 35910*std::pow(2*xi_3 - 1, 4) + 34770*std::pow(2*xi_3 - 1, 3) + 13680*std::pow(2*xi_3 - 1, 2) - 1669)/((xi_3 - 1)*(xi_2 + xi_3 - 1));
  253 => -(6*xi_1*std::pow(xi_2 + xi_3 - 1, 3) + 3*std::pow(xi_2 + xi_3 - 1, 4) - 5*(xi_2 + xi_3 - 1)*std::pow(2*xi_1 + xi_2 + xi_3 - 1, 3))*(198*xi_2*std::pow(xi_3 - 1, 2) + 92*std::pow(xi_3 - 1, 3) - 231*(xi_3 - 1)*std::pow(2*xi_2 + xi_3 - 1, 2) + 143*std::pow(2*xi_2 + xi_3 - 1, 3))*(11704*xi_3 + 7315*std::pow(2*xi_3 - 1, 4) + 18620*std::pow(2*xi_3 - 1, 3) + 16530*std::pow(2*xi_3 - 1, 2) - 5209)/(128*xi_2 + 128*xi_3 - 128);
  254 => (6*xi_1*std::pow(xi_2 + xi_3 - 1, 3) + 3*std::pow(xi_2 + xi_3 - 1, 4) - 5*(xi_2 + xi_3 - 1)*std::pow(2*xi_1 + xi_2 + xi_3 - 1, 3))*(1170*xi_3 + 385*std::pow(2*xi_3 - 1, 3) + 840*std::pow(2*xi_3 - 1, 2) - 457)*(168*xi_2*std::pow(xi_3 - 1, 3) + 127*std::pow(xi_3 - 1, 4) - 1326*std::pow(xi_3 - 1, 2)*std::pow(2*xi_2 + xi_3 - 1, 2) + 2548*(xi_3 - 1)*std::pow(2*xi_2 + xi_3 - 1, 3) - 1365*std::pow(2*xi_2 + xi_3 - 1, 4))/(64*xi_2 + 64*xi_3 - 64);
  255 => (1/64)*(756*xi_3 + 231*std::pow(2*xi_3 - 1, 2) - 227)*(6*xi_1*std::pow(xi_2 + xi_3 - 1, 3) + 5*(-xi_2 - xi_3 + 1)*std::pow(2*xi_1 + xi_2 + xi_3 - 1, 3) + 3*std::pow(xi_2 + xi_3 - 1, 4))*(390*xi_2*std::pow(xi_3 - 1, 5) + 1820*std::pow(-xi_3 + 1, 3)*std::pow(2*xi_2 + xi_3 - 1, 3) + 1547*(-xi_3 + 1)*std::pow(2*xi_2 + xi_3 - 1, 5) + 174*std::pow(xi_3 - 1, 6) + 3185*std::pow(xi_3 - 1, 2)*std::pow(2*xi_2 + xi_3 - 1, 4))/((xi_3 - 1)*(xi_2 + xi_3 - 1));
  256 => -(22*xi_3 - 1)*(6*xi_1*std::pow(xi_2 + xi_3 - 1, 3) + 3*std::pow(xi_2 + xi_3 - 1, 4) - 5*(xi_2 + xi_3 - 1)*std::pow(2*xi_1 + xi_2 + xi_3 - 1, 3))*(588*xi_2*std::pow(xi_3 - 1, 5) + 317*std::pow(xi_3 - 1, 6) - 1995*std::pow(xi_3 - 1, 4)*std::pow(2*xi_2 + xi_3 - 1, 2) + 980*std::pow(xi_3 - 1, 3)*std::pow(2*xi_2 + xi_3 - 1, 3) + 8925*std::pow(xi_3 - 1, 2)*std::pow(2*xi_2 + xi_3 - 1, 4) - 14994*(xi_3 - 1)*std::pow(2*xi_2 + xi_3 - 1, 5) + 6783*std::pow(2*xi_2 + xi_3 - 1, 6))/(32*xi_2 + 32*xi_3 - 32);
  257 => -1/32*(6*xi_1*std::pow(xi_2 + xi_3 - 1, 3) + 3*std::pow(xi_2 + xi_3 - 1, 4) - 5*(xi_2 + xi_3 - 1)*std::pow(2*xi_1 + xi_2 + xi_3 - 1, 3))*(630*xi_2*std::pow(xi_3 - 1, 7) + 272*std::pow(xi_3 - 1, 8) + 1155*std::pow(xi_3 - 1, 6)*std::pow(2*xi_2 + xi_3 - 1, 2) - 7735*std::pow(xi_3 - 1, 5)*std::pow(2*xi_2 + xi_3 - 1, 3) + 5355*std::pow(xi_3 - 1, 4)*std::pow(2*xi_2 + xi_3 - 1, 4) + 20349*std::pow(xi_3 - 1, 3)*std::pow(2*xi_2 + xi_3 - 1, 5) - 33915*std::pow(xi_3 - 1, 2)*std::pow(2*xi_2 + xi_3 - 1, 6) + 14535*(xi_3 - 1)*std::pow(2*xi_2 + xi_3 - 1, 7))/((xi_3 - 1)*(xi_2 + xi_3 - 1));
  258 => (1/512)*(3*std::pow(xi_2 + xi_3 - 1, 4) - 30*std::pow(xi_2 + xi_3 - 1, 2)*std::pow(2*xi_1 + xi_2 + xi_3 - 1, 2) + 35*std::pow(2*xi_1 + xi_2 + xi_3 - 1, 4))*(-10812*xi_3 + 74613*std::pow(2*xi_3 - 1, 6) + 203490*std::pow(2*xi_3 - 1, 5) + 188955*std::pow(2*xi_3 - 1, 4) + 58140*std::pow(2*xi_3 - 1, 3) - 6885*std::pow(2*xi_3 - 1, 2) + 5011);
  259 => (1/128)*(11*xi_2 + xi_3 - 1)*(3*std::pow(xi_2 + xi_3 - 1, 4) - 30*std::pow(xi_2 + xi_3 - 1, 2)*std::pow(2*xi_1 + xi_2 + xi_3 - 1, 2) + 35*std::pow(2*xi_1 + xi_2 + xi_3 - 1, 4))*(3150*xi_3 + 13167*std::pow(2*xi_3 - 1, 5) + 35910*std::pow(2*xi_3 - 1, 4) + 34770*std::pow(2*xi_3 - 1, 3) + 13680*std::pow(2*xi_3 - 1, 2) - 1669);
  260 => -(108*xi_2*std::pow(xi_3 - 1, 2) + 37*std::pow(xi_3 - 1, 3) - 39*(xi_3 - 1)*std::pow(2*xi_2 + xi_3 - 1, 2))*(3*std::pow(xi_2 + xi_3 - 1, 4) - 30*std::pow(xi_2 + xi_3 - 1, 2)*std::pow(2*xi_1 + xi_2 + xi_3 - 1, 2) + 35*std::pow(2*xi_1 + xi_2 + xi_3 - 1, 4))*(11704*xi_3 + 7315*std::pow(2*xi_3 - 1, 4) + 18620*std::pow(2*xi_3 - 1, 3) + 16530*std::pow(2*xi_3 - 1, 2) - 5209)/(256*xi_3 - 256);
  261 => (1/128)*(3*std::pow(xi_2 + xi_3 - 1, 4) - 30*std::pow(xi_2 + xi_3 - 1, 2)*std::pow(2*xi_1 + xi_2 + xi_3 - 1, 2) + 35*std::pow(2*xi_1 + xi_2 + xi_3 - 1, 4))*(1170*xi_3 + 385*std::pow(2*xi_3 - 1, 3) + 840*std::pow(2*xi_3 - 1, 2) - 457)*(858*xi_2*std::pow(xi_3 - 1, 3) - 819*std::pow(-xi_3 + 1, 2)*std::pow(-2*xi_2 - xi_3 + 1, 2) + 455*(-xi_3 + 1)*std::pow(-2*xi_2 - xi_3 + 1, 3) + 372*std::pow(xi_3 - 1, 4))/(xi_3 - 1);
  262 => (1/128)*(756*xi_3 + 231*std::pow(2*xi_3 - 1, 2) - 227)*(3*std::pow(xi_2 + xi_3 - 1, 4) - 30*std::pow(xi_2 + xi_3 - 1, 2)*std::pow(2*xi_1 + xi_2 + xi_3 - 1, 2) + 35*std::pow(2*xi_1 + xi_2 + xi_3 - 1, 4))*(-336*xi_2*std::pow(xi_3 - 1, 3) - 171*std::pow(xi_3 - 1, 4) + 840*std::pow(xi_3 - 1, 2)*std::pow(2*xi_2 + xi_3 - 1, 2) - 1260*(xi_3 - 1)*std::pow(2*xi_2 + xi_3 - 1, 3) + 595*std::pow(2*xi_2 + xi_3 - 1, 4));
  263 => -(22*xi_3 - 1)*(3*std::pow(xi_2 + xi_3 - 1, 4) - 30*std::pow(xi_2 + xi_3 - 1, 2)*std::pow(2*xi_1 + xi_2 + xi_3 - 1, 2) + 35*std::pow(2*xi_1 + xi_2 + xi_3 - 1, 4))*(330*xi_2*std::pow(xi_3 - 1, 5) + 114*std::pow(xi_3 - 1, 6) + 1170*std::pow(xi_3 - 1, 4)*std::pow(2*xi_2 + xi_3 - 1, 2) - 5270*std::pow(xi_3 - 1, 3)*std::pow(2*xi_2 + xi_3 - 1, 3) + 6885*std::pow(xi_3 - 1, 2)*std::pow(2*xi_2 + xi_3 - 1, 4) - 2907*(xi_3 - 1)*std::pow(2*xi_2 + xi_3 - 1, 5))/(64*xi_3 - 64);
  264 => (1/64)*(3*std::pow(xi_2 + xi_3 - 1, 4) - 30*std::pow(xi_2 + xi_3 - 1, 2)*std::pow(2*xi_1 + xi_2 + xi_3 - 1, 2) + 35*std::pow(2*xi_1 + xi_2 + xi_3 - 1, 4))*(972*xi_2*std::pow(xi_3 - 1, 5) + 467*std::pow(xi_3 - 1, 6) - 1275*std::pow(xi_3 - 1, 4)*std::pow(2*xi_2 + xi_3 - 1, 2) - 3060*std::pow(xi_3 - 1, 3)*std::pow(2*xi_2 + xi_3 - 1, 3) + 14535*std::pow(xi_3 - 1, 2)*std::pow(2*xi_2 + xi_3 - 1, 4) - 17442*(xi_3 - 1)*std::pow(2*xi_2 + xi_3 - 1, 5) + 6783*std::pow(2*xi_2 + xi_3 - 1, 6));
  265 => (1/128)*(30*xi_1*std::pow(xi_2 + xi_3 - 1, 5) + 63*(-xi_2 - xi_3 + 1)*std::pow(-2*xi_1 - xi_2 - xi_3 + 1, 5) + 15*std::pow(xi_2 + xi_3 - 1, 6) + 70*std::pow(xi_2 + xi_3 - 1, 3)*std::pow(-2*xi_1 - xi_2 - xi_3 + 1, 3))*(3150*xi_3 + 13167*std::pow(2*xi_3 - 1, 5) + 35910*std::pow(2*xi_3 - 1, 4) + 34770*std::pow(2*xi_3 - 1, 3) + 13680*std::pow(2*xi_3 - 1, 2) - 1669)/(xi_2 + xi_3 - 1);
  266 => (1/128)*(13*xi_2 + xi_3 - 1)*(30*xi_1*std::pow(xi_2 + xi_3 - 1, 5) + 63*(-xi_2 - xi_3 + 1)*std::pow(-2*xi_1 - xi_2 - xi_3 + 1, 5) + 15*std::pow(xi_2 + xi_3 - 1, 6) + 70*std::pow(xi_2 + xi_3 - 1, 3)*std::pow(-2*xi_1 - xi_2 - xi_3 + 1, 3))*(11704*xi_3 + 7315*std::pow(2*xi_3 - 1, 4) + 18620*std::pow(2*xi_3 - 1, 3) + 16530*std::pow(2*xi_3 - 1, 2) - 5209)/(xi_2 + xi_3 - 1);
  267 => -1/64*(308*xi_2*std::pow(xi_3 - 1, 2) + 101*std::pow(xi_3 - 1, 3) - 105*(xi_3 - 1)*std::pow(2*xi_2 + xi_3 - 1, 2))*(1170*xi_3 + 385*std::pow(2*xi_3 - 1, 3) + 840*std::pow(2*xi_3 - 1, 2) - 457)*(30*xi_1*std::pow(xi_2 + xi_3 - 1, 5) + 15*std::pow(xi_2 + xi_3 - 1, 6) - 70*std::pow(xi_2 + xi_3 - 1, 3)*std::pow(2*xi_1 + xi_2 + xi_3 - 1, 3) + 63*(xi_2 + xi_3 - 1)*std::pow(2*xi_1 + xi_2 + xi_3 - 1, 5))/((xi_3 - 1)*(xi_2 + xi_3 - 1));
  268 => (1/32)*(756*xi_3 + 231*std::pow(2*xi_3 - 1, 2) - 227)*(30*xi_1*std::pow(xi_2 + xi_3 - 1, 5) + 63*(-xi_2 - xi_3 + 1)*std::pow(-2*xi_1 - xi_2 - xi_3 + 1, 5) + 15*std::pow(xi_2 + xi_3 - 1, 6) + 70*std::pow(xi_2 + xi_3 - 1, 3)*std::pow(-2*xi_1 - xi_2 - xi_3 + 1, 3))*(195*xi_2*std::pow(xi_3 - 1, 2) + 81*std::pow(xi_3 - 1, 3) - 165*(xi_3 - 1)*std::pow(-2*xi_2 - xi_3 + 1, 2) - 85*std::pow(-2*xi_2 - xi_3 + 1, 3))/(xi_2 + xi_3 - 1);
  269 => (1/32)*(22*xi_3 - 1)*(30*xi_1*std::pow(xi_2 + xi_3 - 1, 5) + 63*(-xi_2 - xi_3 + 1)*std::pow(-2*xi_1 - xi_2 - xi_3 + 1, 5) + 15*std::pow(xi_2 + xi_3 - 1, 6) + 70*std::pow(xi_2 + xi_3 - 1, 3)*std::pow(-2*xi_1 - xi_2 - xi_3 + 1, 3))*(-968*xi_2*std::pow(xi_3 - 1, 3) - 455*std::pow(xi_3 - 1, 4) + 1734*std::pow(xi_3 - 1, 2)*std::pow(2*xi_2 + xi_3 - 1, 2) - 2244*(xi_3 - 1)*std::pow(2*xi_2 + xi_3 - 1, 3) + 969*std::pow(2*xi_2 + xi_3 - 1, 4))/(xi_2 + xi_3 - 1);
  270 => (1/256)*(30*xi_1*std::pow(xi_2 + xi_3 - 1, 5) + 15*std::pow(xi_2 + xi_3 - 1, 6) - 70*std::pow(xi_2 + xi_3 - 1, 3)*std::pow(2*xi_1 + xi_2 + xi_3 - 1, 3) + 63*(xi_2 + xi_3 - 1)*std::pow(2*xi_1 + xi_2 + xi_3 - 1, 5))*(2210*xi_2*std::pow(xi_3 - 1, 5) + 1358*std::pow(xi_3 - 1, 6) - 16830*std::pow(xi_3 - 1, 4)*std::pow(2*xi_2 + xi_3 - 1, 2) + 48450*std::pow(xi_3 - 1, 3)*std::pow(2*xi_2 + xi_3 - 1, 3) - 53295*std::pow(xi_3 - 1, 2)*std::pow(2*xi_2 + xi_3 - 1, 4) + 20349*(xi_3 - 1)*std::pow(2*xi_2 + xi_3 - 1, 5))/((xi_3 - 1)*(xi_2 + xi_3 - 1));
  271 => (1/256)*(-5*std::pow(xi_2 + xi_3 - 1, 6) + 105*std::pow(xi_2 + xi_3 - 1, 4)*std::pow(2*xi_1 + xi_2 + xi_3 - 1, 2) - 315*std::pow(xi_2 + xi_3 - 1, 2)*std::pow(2*xi_1 + xi_2 + xi_3 - 1, 4) + 231*std::pow(2*xi_1 + xi_2 + xi_3 - 1, 6))*(11704*xi_3 + 7315*std::pow(2*xi_3 - 1, 4) + 18620*std::pow(2*xi_3 - 1, 3) + 16530*std::pow(2*xi_3 - 1, 2) - 5209);
  272 => (1/32)*(15*xi_2 + xi_3 - 1)*(1170*xi_3 + 385*std::pow(2*xi_3 - 1, 3) + 840*std::pow(2*xi_3 - 1, 2) - 457)*(-5*std::pow(xi_2 + xi_3 - 1, 6) + 105*std::pow(xi_2 + xi_3 - 1, 4)*std::pow(2*xi_1 + xi_2 + xi_3 - 1, 2) - 315*std::pow(xi_2 + xi_3 - 1, 2)*std::pow(2*xi_1 + xi_2 + xi_3 - 1, 4) + 231*std::pow(2*xi_1 + xi_2 + xi_3 - 1, 6));
  273 => (756*xi_3 + 231*std::pow(2*xi_3 - 1, 2) - 227)*(104*xi_2*std::pow(xi_3 - 1, 2) + 33*std::pow(xi_3 - 1, 3) - 34*(xi_3 - 1)*std::pow(2*xi_2 + xi_3 - 1, 2))*(5*std::pow(xi_2 + xi_3 - 1, 6) - 105*std::pow(xi_2 + xi_3 - 1, 4)*std::pow(2*xi_1 + xi_2 + xi_3 - 1, 2) + 315*std::pow(xi_2 + xi_3 - 1, 2)*std::pow(2*xi_1 + xi_2 + xi_3 - 1, 4) - 231*std::pow(2*xi_1 + xi_2 + xi_3 - 1, 6))/(64*xi_3 - 64);
  274 => (1/128)*(22*xi_3 - 1)*(2550*xi_2*std::pow(xi_3 - 1, 3) - 1989*std::pow(-xi_3 + 1, 2)*std::pow(-2*xi_2 - xi_3 + 1, 2) + 969*(-xi_3 + 1)*std::pow(-2*xi_2 - xi_3 + 1, 3) + 1028*std::pow(xi_3 - 1, 4))*(-5*std::pow(xi_2 + xi_3 - 1, 6) + 105*std::pow(xi_2 + xi_3 - 1, 4)*std::pow(2*xi_1 + xi_2 + xi_3 - 1, 2) - 315*std::pow(xi_2 + xi_3 - 1, 2)*std::pow(2*xi_1 + xi_2 + xi_3 - 1, 4) + 231*std::pow(2*xi_1 + xi_2 + xi_3 - 1, 6))/(xi_3 - 1);
  275 => (1/256)*(-5*std::pow(xi_2 + xi_3 - 1, 6) + 105*std::pow(xi_2 + xi_3 - 1, 4)*std::pow(2*xi_1 + xi_2 + xi_3 - 1, 2) - 315*std::pow(xi_2 + xi_3 - 1, 2)*std::pow(2*xi_1 + xi_2 + xi_3 - 1, 4) + 231*std::pow(2*xi_1 + xi_2 + xi_3 - 1, 6))*(-8424*xi_2*std::pow(xi_3 - 1, 3) - 3803*std::pow(xi_3 - 1, 4) + 12654*std::pow(xi_3 - 1, 2)*std::pow(2*xi_2 + xi_3 - 1, 2) - 14820*(xi_3 - 1)*std::pow(2*xi_2 + xi_3 - 1, 3) + 5985*std::pow(2*xi_2 + xi_3 - 1, 4));
  276 => -(1170*xi_3 + 385*std::pow(2*xi_3 - 1, 3) + 840*std::pow(2*xi_3 - 1, 2) - 457)*(70*xi_1*std::pow(xi_2 + xi_3 - 1, 7) + 35*std::pow(xi_2 + xi_3 - 1, 8) - 315*std::pow(xi_2 + xi_3 - 1, 5)*std::pow(2*xi_1 + xi_2 + xi_3 - 1, 3) + 693*std::pow(xi_2 + xi_3 - 1, 3)*std::pow(2*xi_1 + xi_2 + xi_3 - 1, 5) - 429*(xi_2 + xi_3 - 1)*std::pow(2*xi_1 + xi_2 + xi_3 - 1, 7))/(32*xi_2 + 32*xi_3 - 32);
  277 => -(17*xi_2 + xi_3 - 1)*(756*xi_3 + 231*std::pow(2*xi_3 - 1, 2) - 227)*(70*xi_1*std::pow(xi_2 + xi_3 - 1, 7) + 35*std::pow(xi_2 + xi_3 - 1, 8) - 315*std::pow(xi_2 + xi_3 - 1, 5)*std::pow(2*xi_1 + xi_2 + xi_3 - 1, 3) + 693*std::pow(xi_2 + xi_3 - 1, 3)*std::pow(2*xi_1 + xi_2 + xi_3 - 1, 5) - 429*(xi_2 + xi_3 - 1)*std::pow(2*xi_1 + xi_2 + xi_3 - 1, 7))/(64*xi_2 + 64*xi_3 - 64);
  278 => (1/64)*(22*xi_3 - 1)*(540*xi_2*std::pow(xi_3 - 1, 2) + 171*(-xi_3 + 1)*std::pow(-2*xi_2 - xi_3 + 1, 2) + 167*std::pow(xi_3 - 1, 3))*(70*xi_1*std::pow(xi_2 + xi_3 - 1, 7) + 315*std::pow(-xi_2 - xi_3 + 1, 5)*std::pow(2*xi_1 + xi_2 + xi_3 - 1, 3) + 429*(-xi_2 - xi_3 + 1)*std::pow(2*xi_1 + xi_2 + xi_3 - 1, 7) + 35*std::pow(xi_2 + xi_3 - 1, 8) + 693*std::pow(xi_2 + xi_3 - 1, 3)*std::pow(2*xi_1 + xi_2 + xi_3 - 1, 5))/((xi_3 - 1)*(xi_2 + xi_3 - 1));
  279 => -(1938*xi_2*std::pow(xi_3 - 1, 2) + 764*std::pow(xi_3 - 1, 3) - 1425*(xi_3 - 1)*std::pow(2*xi_2 + xi_3 - 1, 2) + 665*std::pow(2*xi_2 + xi_3 - 1, 3))*(70*xi_1*std::pow(xi_2 + xi_3 - 1, 7) + 35*std::pow(xi_2 + xi_3 - 1, 8) - 315*std::pow(xi_2 + xi_3 - 1, 5)*std::pow(2*xi_1 + xi_2 + xi_3 - 1, 3) + 693*std::pow(xi_2 + xi_3 - 1, 3)*std::pow(2*xi_1 + xi_2 + xi_3 - 1, 5) - 429*(xi_2 + xi_3 - 1)*std::pow(2*xi_1 + xi_2 + xi_3 - 1, 7))/(64*xi_2 + 64*xi_3 - 64);
  280 => (1/512)*(756*xi_3 + 231*std::pow(2*xi_3 - 1, 2) - 227)*(35*std::pow(xi_2 + xi_3 - 1, 8) - 1260*std::pow(xi_2 + xi_3 - 1, 6)*std::pow(2*xi_1 + xi_2 + xi_3 - 1, 2) + 6930*std::pow(xi_2 + xi_3 - 1, 4)*std::pow(2*xi_1 + xi_2 + xi_3 - 1, 4) - 12012*std::pow(xi_2 + xi_3 - 1, 2)*std::pow(2*xi_1 + xi_2 + xi_3 - 1, 6) + 6435*std::pow(2*xi_1 + xi_2 + xi_3 - 1, 8));
  281 => (1/128)*(22*xi_3 - 1)*(19*xi_2 + xi_3 - 1)*(35*std::pow(xi_2 + xi_3 - 1, 8) - 1260*std::pow(xi_2 + xi_3 - 1, 6)*std::pow(2*xi_1 + xi_2 + xi_3 - 1, 2) + 6930*std::pow(xi_2 + xi_3 - 1, 4)*std::pow(2*xi_1 + xi_2 + xi_3 - 1, 4) - 12012*std::pow(xi_2 + xi_3 - 1, 2)*std::pow(2*xi_1 + xi_2 + xi_3 - 1, 6) + 6435*std::pow(2*xi_1 + xi_2 + xi_3 - 1, 8));
  282 => -(340*xi_2*std::pow(xi_3 - 1, 2) + 103*std::pow(xi_3 - 1, 3) - 105*(xi_3 - 1)*std::pow(2*xi_2 + xi_3 - 1, 2))*(35*std::pow(xi_2 + xi_3 - 1, 8) - 1260*std::pow(xi_2 + xi_3 - 1, 6)*std::pow(2*xi_1 + xi_2 + xi_3 - 1, 2) + 6930*std::pow(xi_2 + xi_3 - 1, 4)*std::pow(2*xi_1 + xi_2 + xi_3 - 1, 4) - 12012*std::pow(xi_2 + xi_3 - 1, 2)*std::pow(2*xi_1 + xi_2 + xi_3 - 1, 6) + 6435*std::pow(2*xi_1 + xi_2 + xi_3 - 1, 8))/(256*xi_3 - 256);
  283 => (1/128)*(22*xi_3 - 1)*(630*xi_1*std::pow(xi_2 + xi_3 - 1, 9) + 18018*std::pow(-xi_2 - xi_3 + 1, 5)*std::pow(-2*xi_1 - xi_2 - xi_3 + 1, 5) + 12155*(-xi_2 - xi_3 + 1)*std::pow(-2*xi_1 - xi_2 - xi_3 + 1, 9) + 315*std::pow(xi_2 + xi_3 - 1, 10) + 4620*std::pow(xi_2 + xi_3 - 1, 7)*std::pow(-2*xi_1 - xi_2 - xi_3 + 1, 3) + 25740*std::pow(xi_2 + xi_3 - 1, 3)*std::pow(-2*xi_1 - xi_2 - xi_3 + 1, 7))/(xi_2 + xi_3 - 1);
  284 => (1/128)*(21*xi_2 + xi_3 - 1)*(630*xi_1*std::pow(xi_2 + xi_3 - 1, 9) + 18018*std::pow(-xi_2 - xi_3 + 1, 5)*std::pow(-2*xi_1 - xi_2 - xi_3 + 1, 5) + 12155*(-xi_2 - xi_3 + 1)*std::pow(-2*xi_1 - xi_2 - xi_3 + 1, 9) + 315*std::pow(xi_2 + xi_3 - 1, 10) + 4620*std::pow(xi_2 + xi_3 - 1, 7)*std::pow(-2*xi_1 - xi_2 - xi_3 + 1, 3) + 25740*std::pow(xi_2 + xi_3 - 1, 3)*std::pow(-2*xi_1 - xi_2 - xi_3 + 1, 7))/(xi_2 + xi_3 - 1);
  285 => -63/256*std::pow(xi_2 + xi_3 - 1, 10) + (3465/256)*std::pow(xi_2 + xi_3 - 1, 8)*std::pow(2*xi_1 + xi_2 + xi_3 - 1, 2) - 15015/128*std::pow(xi_2 + xi_3 - 1, 6)*std::pow(2*xi_1 + xi_2 + xi_3 - 1, 4) + (45045/128)*std::pow(xi_2 + xi_3 - 1, 4)*std::pow(2*xi_1 + xi_2 + xi_3 - 1, 6) - 109395/256*std::pow(xi_2 + xi_3 - 1, 2)*std::pow(2*xi_1 + xi_2 + xi_3 - 1, 8) + (46189/256)*std::pow(2*xi_1 + xi_2 + xi_3 - 1, 10);
}

end Edge.Basis
