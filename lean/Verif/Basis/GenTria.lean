import Verif.Basis.Expr
/-!
Text of the basis functions of triangles.
-/
namespace Edge.Basis

/-- Basis of triangles (src/dg/generated/basis_tria.inc:24-189): the right-hand sides for `b` = 0, ..., 54. Literals `n.0L` are written `n`. -/
def triaVal : List Ex := exs% {
  0 => 1;
  1 => 3*xi_2 - 1;
  2 => 2*xi_1 + xi_2 - 1;
  3 => 10*std::pow(xi_2, 2) - 8*xi_2 + 1;
  4 => (5*xi_2 - 1)*(2*xi_1 + xi_2 - 1);
  5 => -1/2*std::pow(xi_2 - 1, 2) + (3/2)*std::pow(2*xi_1 + xi_2 - 1, 2);
  6 => 35*std::pow(xi_2, 3) - 45*std::pow(xi_2, 2) + 15*xi_2 - 1;
  7 => (1/4)*(2*xi_1 + xi_2 - 1)*(36*xi_2 + 21*std::pow(2*xi_2 - 1, 2) - 17);
  8 => (1/2)*(7*xi_2 - 1)*(-std::pow(xi_2 - 1, 2) + 3*std::pow(2*xi_1 + xi_2 - 1, 2));
  9 => -(6*xi_1*std::pow(xi_2 - 1, 3) + 3*std::pow(xi_2 - 1, 4) - 5*(xi_2 - 1)*std::pow(2*xi_1 + xi_2 - 1, 3))/(2*xi_2 - 2);
  10 => 126*std::pow(xi_2, 4) - 224*std::pow(xi_2, 3) + 126*std::pow(xi_2, 2) - 24*xi_2 + 1;
  11 => (1/2)*(2*xi_1 + xi_2 - 1)*(21*std::pow(2*xi_2 - 1, 3) + 21*std::pow(2*xi_2 - 1, 2) - 2);
  12 => (1/2)*(-std::pow(xi_2 - 1, 2) + 3*std::pow(2*xi_1 + xi_2 - 1, 2))*(20*xi_2 + 9*std::pow(2*xi_2 - 1, 2) - 8);
  13 => -(9*xi_2 - 1)*(6*xi_1*std::pow(xi_2 - 1, 3) + 3*std::pow(xi_2 - 1, 4) - 5*(xi_2 - 1)*std::pow(2*xi_1 + xi_2 - 1, 3))/(2*xi_2 - 2);
  14 => (3/8)*std::pow(xi_2 - 1, 4) - 15/4*std::pow(xi_2 - 1, 2)*std::pow(2*xi_1 + xi_2 - 1, 2) + (35/8)*std::pow(2*xi_1 + xi_2 - 1, 4);
  15 => 462*std::pow(xi_2, 5) - 1050*std::pow(xi_2, 4) + 840*std::pow(xi_2, 3) - 280*std::pow(xi_2, 2) + 35*xi_2 - 1;
  16 => (1/8)*(2*xi_1 + xi_2 - 1)*(-88*xi_2 + 165*std::pow(2*xi_2 - 1, 4) + 180*std::pow(2*xi_2 - 1, 3) - 18*std::pow(2*xi_2 - 1, 2) + 41);
  17 => (1/16)*(-std::pow(xi_2 - 1, 2) + 3*std::pow(2*xi_1 + xi_2 - 1, 2))*(126*xi_2 + 165*std::pow(2*xi_2 - 1, 3) + 225*std::pow(2*xi_2 - 1, 2) - 68);
  18 => -(140*xi_2 + 55*std::pow(2*xi_2 - 1, 2) - 51)*(6*xi_1*std::pow(xi_2 - 1, 3) + 3*std::pow(xi_2 - 1, 4) - 5*(xi_2 - 1)*std::pow(2*xi_1 + xi_2 - 1, 3))/(8*xi_2 - 8);
  19 => (1/8)*(11*xi_2 - 1)*(3*std::pow(xi_2 - 1, 4) - 30*std::pow(xi_2 - 1, 2)*std::pow(2*xi_1 + xi_2 - 1, 2) + 35*std::pow(2*xi_1 + xi_2 - 1, 4));
  20 => (1/8)*(30*xi_1*std::pow(xi_2 - 1, 5) + 63*(-xi_2 + 1)*std::pow(-2*xi_1 - xi_2 + 1, 5) + 15*std::pow(xi_2 - 1, 6) + 70*std::pow(xi_2 - 1, 3)*std::pow(-2*xi_1 - xi_2 + 1, 3))/(xi_2 - 1);
  21 => 1716*std::pow(xi_2, 6) - 4752*std::pow(xi_2, 5) + 4950*std::pow(xi_2, 4) - 2400*std::pow(xi_2, 3) + 540*std::pow(xi_2, 2) - 48*xi_2 + 1;
  22 => -1/32*(2*xi_1 + xi_2 - 1)*(90*xi_2 - 1287*std::pow(2*xi_2 - 1, 5) - 1485*std::pow(2*xi_2 - 1, 4) + 330*std::pow(2*xi_2 - 1, 3) + 630*std::pow(2*xi_2 - 1, 2) - 70);
  23 => (1/32)*(-std::pow(xi_2 - 1, 2) + 3*std::pow(2*xi_1 + xi_2 - 1, 2))*(-200*xi_2 + 715*std::pow(2*xi_2 - 1, 4) + 1100*std::pow(2*xi_2 - 1, 3) + 330*std::pow(2*xi_2 - 1, 2) + 71);
  24 => -(6*xi_1*std::pow(xi_2 - 1, 3) + 3*std::pow(xi_2 - 1, 4) - 5*(xi_2 - 1)*std::pow(2*xi_1 + xi_2 - 1, 3))*(198*xi_2 + 143*std::pow(2*xi_2 - 1, 3) + 231*std::pow(2*xi_2 - 1, 2) - 92)/(8*xi_2 - 8);
  25 => (1/16)*(108*xi_2 + 39*std::pow(2*xi_2 - 1, 2) - 37)*(3*std::pow(xi_2 - 1, 4) - 30*std::pow(xi_2 - 1, 2)*std::pow(2*xi_1 + xi_2 - 1, 2) + 35*std::pow(2*xi_1 + xi_2 - 1, 4));
  26 => (1/8)*(13*xi_2 - 1)*(30*xi_1*std::pow(xi_2 - 1, 5) + 63*(-xi_2 + 1)*std::pow(-2*xi_1 - xi_2 + 1, 5) + 15*std::pow(xi_2 - 1, 6) + 70*std::pow(xi_2 - 1, 3)*std::pow(-2*xi_1 - xi_2 + 1, 3))/(xi_2 - 1);
  27 => -5/16*std::pow(xi_2 - 1, 6) + (105/16)*std::pow(xi_2 - 1, 4)*std::pow(2*xi_1 + xi_2 - 1, 2) - 315/16*std::pow(xi_2 - 1, 2)*std::pow(2*xi_1 + xi_2 - 1, 4) + (231/16)*std::pow(2*xi_1 + xi_2 - 1, 6);
  28 => 6435*std::pow(xi_2, 7) - 21021*std::pow(xi_2, 6) + 27027*std::pow(xi_2, 5) - 17325*std::pow(xi_2, 4) + 5775*std::pow(xi_2, 3) - 945*std::pow(xi_2, 2) + 63*xi_2 - 1;
  29 => -1/64*(2*xi_1 + xi_2 - 1)*(-780*xi_2 - 5005*std::pow(2*xi_2 - 1, 6) - 6006*std::pow(2*xi_2 - 1, 5) + 2145*std::pow(2*xi_2 - 1, 4) + 3740*std::pow(2*xi_2 - 1, 3) + 165*std::pow(2*xi_2 - 1, 2) + 365);
  30 => (1/64)*(-std::pow(xi_2 - 1, 2) + 3*std::pow(2*xi_1 + xi_2 - 1, 2))*(-770*xi_2 + 3003*std::pow(2*xi_2 - 1, 5) + 5005*std::pow(2*xi_2 - 1, 4) + 1430*std::pow(2*xi_2 - 1, 3) - 990*std::pow(2*xi_2 - 1, 2) + 386);
  31 => -(6*xi_1*std::pow(xi_2 - 1, 3) + 3*std::pow(xi_2 - 1, 4) - 5*(xi_2 - 1)*std::pow(2*xi_1 + xi_2 - 1, 3))*(168*xi_2 + 1365*std::pow(2*xi_2 - 1, 4) + 2548*std::pow(2*xi_2 - 1, 3) + 1326*std::pow(2*xi_2 - 1, 2) - 127)/(32*xi_2 - 32);
  32 => (1/64)*(3*std::pow(xi_2 - 1, 4) - 30*std::pow(xi_2 - 1, 2)*std::pow(2*xi_1 + xi_2 - 1, 2) + 35*std::pow(2*xi_1 + xi_2 - 1, 4))*(858*xi_2 + 455*std::pow(2*xi_2 - 1, 3) + 819*std::pow(2*xi_2 - 1, 2) - 372);
  33 => (1/32)*(308*xi_2 + 105*std::pow(2*xi_2 - 1, 2) - 101)*(30*xi_1*std::pow(xi_2 - 1, 5) + 63*(-xi_2 + 1)*std::pow(-2*xi_1 - xi_2 + 1, 5) + 15*std::pow(xi_2 - 1, 6) + 70*std::pow(xi_2 - 1, 3)*std::pow(-2*xi_1 - xi_2 + 1, 3))/(xi_2 - 1);
  34 => (1/16)*(15*xi_2 - 1)*(-5*std::pow(xi_2 - 1, 6) + 105*std::pow(xi_2 - 1, 4)*std::pow(2*xi_1 + xi_2 - 1, 2) - 315*std::pow(xi_2 - 1, 2)*std::pow(2*xi_1 + xi_2 - 1, 4) + 231*std::pow(2*xi_1 + xi_2 - 1, 6));
  35 => (1/16)*(-70*xi_1*std::pow(xi_2 - 1, 7) - 429*(-xi_2 + 1)*std::pow(2*xi_1 + xi_2 - 1, 7) - 35*std::pow(xi_2 - 1, 8) + 315*std::pow(xi_2 - 1, 5)*std::pow(2*xi_1 + xi_2 - 1, 3) - 693*std::pow(xi_2 - 1, 3)*std::pow(2*xi_1 + xi_2 - 1, 5))/(xi_2 - 1);
  36 => 24310*std::pow(xi_2, 8) - 91520*std::pow(xi_2, 7) + 140140*std::pow(xi_2, 6) - 112112*std::pow(xi_2, 5) + 50050*std::pow(xi_2, 4) - 12320*std::pow(xi_2, 3) + 1540*std::pow(xi_2, 2) - 80*xi_2 + 1;
  37 => (1/32)*(2*xi_1 + xi_2 - 1)*(154*xi_2 + 4862*std::pow(2*xi_2 - 1, 7) + 6006*std::pow(2*xi_2 - 1, 6) - 3003*std::pow(2*xi_2 - 1, 5) - 5005*std::pow(2*xi_2 - 1, 4) + 924*std::pow(2*xi_2 - 1, 2) - 98);
  38 => (1/32)*(-std::pow(xi_2 - 1, 2) + 3*std::pow(2*xi_1 + xi_2 - 1, 2))*(96*xi_2 + 3094*std::pow(2*xi_2 - 1, 6) + 5460*std::pow(2*xi_2 - 1, 5) + 1365*std::pow(2*xi_2 - 1, 4) - 1820*std::pow(2*xi_2 - 1, 3) - 780*std::pow(2*xi_2 - 1, 2) - 23);
  39 => -(6*xi_1*std::pow(xi_2 - 1, 3) + 3*std::pow(xi_2 - 1, 4) - 5*(xi_2 - 1)*std::pow(2*xi_1 + xi_2 - 1, 3))*(-390*xi_2 + 1547*std::pow(2*xi_2 - 1, 5) + 3185*std::pow(2*xi_2 - 1, 4) + 1820*std::pow(2*xi_2 - 1, 3) + 174)/(16*xi_2 - 16);
  40 => (1/32)*(3*std::pow(xi_2 - 1, 4) - 30*std::pow(xi_2 - 1, 2)*std::pow(2*xi_1 + xi_2 - 1, 2) + 35*std::pow(2*xi_1 + xi_2 - 1, 4))*(336*xi_2 + 595*std::pow(2*xi_2 - 1, 4) + 1260*std::pow(2*xi_2 - 1, 3) + 840*std::pow(2*xi_2 - 1, 2) - 171);
  41 => (1/8)*(195*xi_2 + 85*std::pow(2*xi_2 - 1, 3) + 165*std::pow(2*xi_2 - 1, 2) - 81)*(30*xi_1*std::pow(xi_2 - 1, 5) + 63*(-xi_2 + 1)*std::pow(-2*xi_1 - xi_2 + 1, 5) + 15*std::pow(xi_2 - 1, 6) + 70*std::pow(xi_2 - 1, 3)*std::pow(-2*xi_1 - xi_2 + 1, 3))/(xi_2 - 1);
  42 => (1/16)*(104*xi_2 + 34*std::pow(2*xi_2 - 1, 2) - 33)*(-5*std::pow(xi_2 - 1, 6) + 105*std::pow(xi_2 - 1, 4)*std::pow(2*xi_1 + xi_2 - 1, 2) - 315*std::pow(xi_2 - 1, 2)*std::pow(2*xi_1 + xi_2 - 1, 4) + 231*std::pow(2*xi_1 + xi_2 - 1, 6));
  43 => -(17*xi_2 - 1)*(70*xi_1*std::pow(xi_2 - 1, 7) + 35*std::pow(xi_2 - 1, 8) - 315*std::pow(xi_2 - 1, 5)*std::pow(2*xi_1 + xi_2 - 1, 3) + 693*std::pow(xi_2 - 1, 3)*std::pow(2*xi_1 + xi_2 - 1, 5) - 429*(xi_2 - 1)*std::pow(2*xi_1 + xi_2 - 1, 7))/(16*xi_2 - 16);
  44 => (35/128)*std::pow(xi_2 - 1, 8) - 315/32*std::pow(xi_2 - 1, 6)*std::pow(2*xi_1 + xi_2 - 1, 2) + (3465/64)*std::pow(xi_2 - 1, 4)*std::pow(2*xi_1 + xi_2 - 1, 4) - 3003/32*std::pow(xi_2 - 1, 2)*std::pow(2*xi_1 + xi_2 - 1, 6) + (6435/128)*std::pow(2*xi_1 + xi_2 - 1, 8);
  45 => 92378*std::pow(xi_2, 9) - 393822*std::pow(xi_2, 8) + 700128*std::pow(xi_2, 7) - 672672*std::pow(xi_2, 6) + 378378*std::pow(xi_2, 5) - 126126*std::pow(xi_2, 4) + 24024*std::pow(xi_2, 3) - 2376*std::pow(xi_2, 2) + 99*xi_2 - 1;
  46 => (1/128)*(2*xi_1 + xi_2 - 1)*(-1680*xi_2 + 37791*std::pow(2*xi_2 - 1, 8) + 47736*std::pow(2*xi_2 - 1, 7) - 30940*std::pow(2*xi_2 - 1, 6) - 50232*std::pow(2*xi_2 - 1, 5) + 2730*std::pow(2*xi_2 - 1, 4) + 13832*std::pow(2*xi_2 - 1, 3) + 1092*std::pow(2*xi_2 - 1, 2) + 791);
  47 => (1/64)*(-std::pow(xi_2 - 1, 2) + 3*std::pow(2*xi_1 + xi_2 - 1, 2))*(910*xi_2 + 12597*std::pow(2*xi_2 - 1, 7) + 23205*std::pow(2*xi_2 - 1, 6) + 4641*std::pow(2*xi_2 - 1, 5) - 11375*std::pow(2*xi_2 - 1, 4) - 5005*std::pow(2*xi_2 - 1, 3) + 819*std::pow(2*xi_2 - 1, 2) - 448);
  48 => -(6*xi_1*std::pow(xi_2 - 1, 3) + 3*std::pow(xi_2 - 1, 4) - 5*(xi_2 - 1)*std::pow(2*xi_1 + xi_2 - 1, 3))*(-588*xi_2 + 6783*std::pow(2*xi_2 - 1, 6) + 14994*std::pow(2*xi_2 - 1, 5) + 8925*std::pow(2*xi_2 - 1, 4) - 980*std::pow(2*xi_2 - 1, 3) - 1995*std::pow(2*xi_2 - 1, 2) + 317)/(32*xi_2 - 32);
  49 => (1/64)*(3*std::pow(xi_2 - 1, 4) - 30*std::pow(xi_2 - 1, 2)*std::pow(2*xi_1 + xi_2 - 1, 2) + 35*std::pow(2*xi_1 + xi_2 - 1, 4))*(-330*xi_2 + 2907*std::pow(2*xi_2 - 1, 5) + 6885*std::pow(2*xi_2 - 1, 4) + 5270*std::pow(2*xi_2 - 1, 3) + 1170*std::pow(2*xi_2 - 1, 2) + 114);
  50 => (1/32)*(30*xi_1*std::pow(xi_2 - 1, 5) + 63*(-xi_2 + 1)*std::pow(-2*xi_1 - xi_2 + 1, 5) + 15*std::pow(xi_2 - 1, 6) + 70*std::pow(xi_2 - 1, 3)*std::pow(-2*xi_1 - xi_2 + 1, 3))*(968*xi_2 + 969*std::pow(2*xi_2 - 1, 4) + 2244*std::pow(2*xi_2 - 1, 3) + 1734*std::pow(2*xi_2 - 1, 2) - 455)/(xi_2 - 1);
  51 => (1/128)*(2550*xi_2 + 969*std::pow(2*xi_2 - 1, 3) + 1989*std::pow(2*xi_2 - 1, 2) - 1028)*(-5*std::pow(xi_2 - 1, 6) + 105*std::pow(xi_2 - 1, 4)*std::pow(2*xi_1 + xi_2 - 1, 2) - 315*std::pow(xi_2 - 1, 2)*std::pow(2*xi_1 + xi_2 - 1, 4) + 231*std::pow(2*xi_1 + xi_2 - 1, 6));
  52 => -(540*xi_2 + 171*std::pow(2*xi_2 - 1, 2) - 167)*(70*xi_1*std::pow(xi_2 - 1, 7) + 35*std::pow(xi_2 - 1, 8) - 315*std::pow(xi_2 - 1, 5)*std::pow(2*xi_1 + xi_2 - 1, 3) + 693*std::pow(xi_2 - 1, 3)*std::pow(2*xi_1 + xi_2 - 1, 5) - 429*(xi_2 - 1)*std::pow(2*xi_1 + xi_2 - 1, 7))/(64*xi_2 - 64);
  53 => (1/128)*(19*xi_2 - 1)*(35*std::pow(xi_2 - 1, 8) - 1260*std::pow(xi_2 - 1, 6)*std::pow(2*xi_1 + xi_2 - 1, 2) + 6930*std::pow(xi_2 - 1, 4)*std::pow(2*xi_1 + xi_2 - 1, 4) - 12012*std::pow(xi_2 - 1, 2)*std::pow(2*xi_1 + xi_2 - 1, 6) + 6435*std::pow(2*xi_1 + xi_2 - 1, 8));
  54 => (1/128)*(630*xi_1*std::pow(xi_2 - 1, 9) + 18018*std::pow(-xi_2 + 1, 5)*std::pow(-2*xi_1 - xi_2 + 1, 5) + 12155*(-xi_2 + 1)*std::pow(-2*xi_1 - xi_2 + 1, 9) + 315*std::pow(xi_2 - 1, 10) + 4620*std::pow(xi_2 - 1, 7)*std::pow(-2*xi_1 - xi_2 + 1, 3) + 25740*std::pow(xi_2 - 1, 3)*std::pow(-2*xi_1 - xi_2 + 1, 7))/(xi_2 - 1);
}

/-- First derivatives of the basis of triangles (src/dg/generated/basis_tria_der_xi1.inc:24-189): the right-hand sides for `b` = 0, ..., 54. Literals `n.0L` are written `n`. -/
def triaDer1 : List Ex := exs% {
  0 => 0;
  1 => 0;
  2 => 2;
  3 => 0;
  4 => 10*xi_2 - 2;
  5 => 12*xi_1 + 6*xi_2 - 6;
  6 => 0;
  7 => 18*xi_2 + (21/2)*std::pow(2*xi_2 - 1, 2) - 17/2;
  8 => (1/2)*(7*xi_2 - 1)*(24*xi_1 + 12*xi_2 - 12);
  9 => -(6*std::pow(xi_2 - 1, 3) - 30*(xi_2 - 1)*std::pow(2*xi_1 + xi_2 - 1, 2))/(2*xi_2 - 2);
  10 => 0;
  11 => 21*std::pow(2*xi_2 - 1, 3) + 21*std::pow(2*xi_2 - 1, 2) - 2;
  12 => (1/2)*(24*xi_1 + 12*xi_2 - 12)*(20*xi_2 + 9*std::pow(2*xi_2 - 1, 2) - 8);
  13 => -(9*xi_2 - 1)*(6*std::pow(xi_2 - 1, 3) - 30*(xi_2 - 1)*std::pow(2*xi_1 + xi_2 - 1, 2))/(2*xi_2 - 2);
  14 => -15/4*std::pow(xi_2 - 1, 2)*(8*xi_1 + 4*xi_2 - 4) + 35*std::pow(2*xi_1 + xi_2 - 1, 3);
  15 => 0;
  16 => -22*xi_2 + (165/4)*std::pow(2*xi_2 - 1, 4) + 45*std::pow(2*xi_2 - 1, 3) - 9/2*std::pow(2*xi_2 - 1, 2) + 41/4;
  17 => (1/16)*(24*xi_1 + 12*xi_2 - 12)*(126*xi_2 + 165*std::pow(2*xi_2 - 1, 3) + 225*std::pow(2*xi_2 - 1, 2) - 68);
  18 => -(6*std::pow(xi_2 - 1, 3) - 30*(xi_2 - 1)*std::pow(2*xi_1 + xi_2 - 1, 2))*(140*xi_2 + 55*std::pow(2*xi_2 - 1, 2) - 51)/(8*xi_2 - 8);
  19 => (1/8)*(11*xi_2 - 1)*(-30*std::pow(xi_2 - 1, 2)*(8*xi_1 + 4*xi_2 - 4) + 280*std::pow(2*xi_1 + xi_2 - 1, 3));
  20 => (1/8)*(-630*(-xi_2 + 1)*std::pow(-2*xi_1 - xi_2 + 1, 4) + 30*std::pow(xi_2 - 1, 5) - 420*std::pow(xi_2 - 1, 3)*std::pow(-2*xi_1 - xi_2 + 1, 2))/(xi_2 - 1);
  21 => 0;
  22 => -45/8*xi_2 + (1287/16)*std::pow(2*xi_2 - 1, 5) + (1485/16)*std::pow(2*xi_2 - 1, 4) - 165/8*std::pow(2*xi_2 - 1, 3) - 315/8*std::pow(2*xi_2 - 1, 2) + 35/8;
  23 => (1/32)*(24*xi_1 + 12*xi_2 - 12)*(-200*xi_2 + 715*std::pow(2*xi_2 - 1, 4) + 1100*std::pow(2*xi_2 - 1, 3) + 330*std::pow(2*xi_2 - 1, 2) + 71);
  24 => -(6*std::pow(xi_2 - 1, 3) - 30*(xi_2 - 1)*std::pow(2*xi_1 + xi_2 - 1, 2))*(198*xi_2 + 143*std::pow(2*xi_2 - 1, 3) + 231*std::pow(2*xi_2 - 1, 2) - 92)/(8*xi_2 - 8);
  25 => (1/16)*(-30*std::pow(xi_2 - 1, 2)*(8*xi_1 + 4*xi_2 - 4) + 280*std::pow(2*xi_1 + xi_2 - 1, 3))*(108*xi_2 + 39*std::pow(2*xi_2 - 1, 2) - 37);
  26 => (1/8)*(13*xi_2 - 1)*(-630*(-xi_2 + 1)*std::pow(-2*xi_1 - xi_2 + 1, 4) + 30*std::pow(xi_2 - 1, 5) - 420*std::pow(xi_2 - 1, 3)*std::pow(-2*xi_1 - xi_2 + 1, 2))/(xi_2 - 1);
  27 => (105/16)*std::pow(xi_2 - 1, 4)*(8*xi_1 + 4*xi_2 - 4) - 315/2*std::pow(xi_2 - 1, 2)*std::pow(2*xi_1 + xi_2 - 1, 3) + (693/4)*std::pow(2*xi_1 + xi_2 - 1, 5);
  28 => 0;
  29 => (195/8)*xi_2 + (5005/32)*std::pow(2*xi_2 - 1, 6) + (3003/16)*std::pow(2*xi_2 - 1, 5) - 2145/32*std::pow(2*xi_2 - 1, 4) - 935/8*std::pow(2*xi_2 - 1, 3) - 165/32*std::pow(2*xi_2 - 1, 2) - 365/32;
  30 => (1/64)*(24*xi_1 + 12*xi_2 - 12)*(-770*xi_2 + 3003*std::pow(2*xi_2 - 1, 5) + 5005*std::pow(2*xi_2 - 1, 4) + 1430*std::pow(2*xi_2 - 1, 3) - 990*std::pow(2*xi_2 - 1, 2) + 386);
  31 => -(6*std::pow(xi_2 - 1, 3) - 30*(xi_2 - 1)*std::pow(2*xi_1 + xi_2 - 1, 2))*(168*xi_2 + 1365*std::pow(2*xi_2 - 1, 4) + 2548*std::pow(2*xi_2 - 1, 3) + 1326*std::pow(2*xi_2 - 1, 2) - 127)/(32*xi_2 - 32);
  32 => (1/64)*(-30*std::pow(xi_2 - 1, 2)*(8*xi_1 + 4*xi_2 - 4) + 280*std::pow(2*xi_1 + xi_2 - 1, 3))*(858*xi_2 + 455*std::pow(2*xi_2 - 1, 3) + 819*std::pow(2*xi_2 - 1, 2) - 372);
  33 => (1/32)*(308*xi_2 + 105*std::pow(2*xi_2 - 1, 2) - 101)*(-630*(-xi_2 + 1)*std::pow(-2*xi_1 - xi_2 + 1, 4) + 30*std::pow(xi_2 - 1, 5) - 420*std::pow(xi_2 - 1, 3)*std::pow(-2*xi_1 - xi_2 + 1, 2))/(xi_2 - 1);
  34 => (1/16)*(15*xi_2 - 1)*(105*std::pow(xi_2 - 1, 4)*(8*xi_1 + 4*xi_2 - 4) - 2520*std::pow(xi_2 - 1, 2)*std::pow(2*xi_1 + xi_2 - 1, 3) + 2772*std::pow(2*xi_1 + xi_2 - 1, 5));
  35 => (1/16)*(-6006*(-xi_2 + 1)*std::pow(2*xi_1 + xi_2 - 1, 6) - 70*std::pow(xi_2 - 1, 7) + 1890*std::pow(xi_2 - 1, 5)*std::pow(2*xi_1 + xi_2 - 1, 2) - 6930*std::pow(xi_2 - 1, 3)*std::pow(2*xi_1 + xi_2 - 1, 4))/(xi_2 - 1);
  36 => 0;
  37 => (77/8)*xi_2 + (2431/8)*std::pow(2*xi_2 - 1, 7) + (3003/8)*std::pow(2*xi_2 - 1, 6) - 3003/16*std::pow(2*xi_2 - 1, 5) - 5005/16*std::pow(2*xi_2 - 1, 4) + (231/4)*std::pow(2*xi_2 - 1, 2) - 49/8;
  38 => (1/32)*(24*xi_1 + 12*xi_2 - 12)*(96*xi_2 + 3094*std::pow(2*xi_2 - 1, 6) + 5460*std::pow(2*xi_2 - 1, 5) + 1365*std::pow(2*xi_2 - 1, 4) - 1820*std::pow(2*xi_2 - 1, 3) - 780*std::pow(2*xi_2 - 1, 2) - 23);
  39 => -(6*std::pow(xi_2 - 1, 3) - 30*(xi_2 - 1)*std::pow(2*xi_1 + xi_2 - 1, 2))*(-390*xi_2 + 1547*std::pow(2*xi_2 - 1, 5) + 3185*std::pow(2*xi_2 - 1, 4) + 1820*std::pow(2*xi_2 - 1, 3) + 174)/(16*xi_2 - 16);
  40 => (1/32)*(-30*std::pow(xi_2 - 1, 2)*(8*xi_1 + 4*xi_2 - 4) + 280*std::pow(2*xi_1 + xi_2 - 1, 3))*(336*xi_2 + 595*std::pow(2*xi_2 - 1, 4) + 1260*std::pow(2*xi_2 - 1, 3) + 840*std::pow(2*xi_2 - 1, 2) - 171);
  41 => (1/8)*(-630*(-xi_2 + 1)*std::pow(-2*xi_1 - xi_2 + 1, 4) + 30*std::pow(xi_2 - 1, 5) - 420*std::pow(xi_2 - 1, 3)*std::pow(-2*xi_1 - xi_2 + 1, 2))*(195*xi_2 + 85*std::pow(2*xi_2 - 1, 3) + 165*std::pow(2*xi_2 - 1, 2) - 81)/(xi_2 - 1);
  42 => (1/16)*(104*xi_2 + 34*std::pow(2*xi_2 - 1, 2) - 33)*(105*std::pow(xi_2 - 1, 4)*(8*xi_1 + 4*xi_2 - 4) - 2520*std::pow(xi_2 - 1, 2)*std::pow(2*xi_1 + xi_2 - 1, 3) + 2772*std::pow(2*xi_1 + xi_2 - 1, 5));
  43 => -(17*xi_2 - 1)*(70*std::pow(xi_2 - 1, 7) - 1890*std::pow(xi_2 - 1, 5)*std::pow(2*xi_1 + xi_2 - 1, 2) + 6930*std::pow(xi_2 - 1, 3)*std::pow(2*xi_1 + xi_2 - 1, 4) - 6006*(xi_2 - 1)*std::pow(2*xi_1 + xi_2 - 1, 6))/(16*xi_2 - 16);
  44 => -315/32*std::pow(xi_2 - 1, 6)*(8*xi_1 + 4*xi_2 - 4) + (3465/8)*std::pow(xi_2 - 1, 4)*std::pow(2*xi_1 + xi_2 - 1, 3) - 9009/8*std::pow(xi_2 - 1, 2)*std::pow(2*xi_1 + xi_2 - 1, 5) + (6435/8)*std::pow(2*xi_1 + xi_2 - 1, 7);
  45 => 0;
  46 => -105/4*xi_2 + (37791/64)*std::pow(2*xi_2 - 1, 8) + (5967/8)*std::pow(2*xi_2 - 1, 7) - 7735/16*std::pow(2*xi_2 - 1, 6) - 6279/8*std::pow(2*xi_2 - 1, 5) + (1365/32)*std::pow(2*xi_2 - 1, 4) + (1729/8)*std::pow(2*xi_2 - 1, 3) + (273/16)*std::pow(2*xi_2 - 1, 2) + 791/64;
  47 => (1/64)*(24*xi_1 + 12*xi_2 - 12)*(910*xi_2 + 12597*std::pow(2*xi_2 - 1, 7) + 23205*std::pow(2*xi_2 - 1, 6) + 4641*std::pow(2*xi_2 - 1, 5) - 11375*std::pow(2*xi_2 - 1, 4) - 5005*std::pow(2*xi_2 - 1, 3) + 819*std::pow(2*xi_2 - 1, 2) - 448);
  48 => -(6*std::pow(xi_2 - 1, 3) - 30*(xi_2 - 1)*std::pow(2*xi_1 + xi_2 - 1, 2))*(-588*xi_2 + 6783*std::pow(2*xi_2 - 1, 6) + 14994*std::pow(2*xi_2 - 1, 5) + 8925*std::pow(2*xi_2 - 1, 4) - 980*std::pow(2*xi_2 - 1, 3) - 1995*std::pow(2*xi_2 - 1, 2) + 317)/(32*xi_2 - 32);
  49 => (1/64)*(-30*std::pow(xi_2 - 1, 2)*(8*xi_1 + 4*xi_2 - 4) + 280*std::pow(2*xi_1 + xi_2 - 1, 3))*(-330*xi_2 + 2907*std::pow(2*xi_2 - 1, 5) + 6885*std::pow(2*xi_2 - 1, 4) + 5270*std::pow(2*xi_2 - 1, 3) + 1170*std::pow(2*xi_2 - 1, 2) + 114);
  50 => (1/32)*(-630*(-xi_2 + 1)*std::pow(-2*xi_1 - xi_2 + 1, 4) + 30*std::pow(xi_2 - 1, 5) - 420*std::pow(xi_2 - 1, 3)*std::pow(-2*xi_1 - xi_2 + 1, 2))*(968*xi_2 + 969*std::pow(2*xi_2 - 1, 4) + 2244*std::pow(2*xi_2 - 1, 3) + 1734*std::pow(2*xi_2 - 1, 2) - 455)/(xi_2 - 1);
  51 => (1/128)*(105*std::pow(xi_2 - 1, 4)*(8*xi_1 + 4*xi_2 - 4) - 2520*std::pow(xi_2 - 1, 2)*std::pow(2*xi_1 + xi_2 - 1, 3) + 2772*std::pow(2*xi_1 + xi_2 - 1, 5))*(2550*xi_2 + 969*std::pow(2*xi_2 - 1, 3) + 1989*std::pow(2*xi_2 - 1, 2) - 1028);
  52 => -(540*xi_2 + 171*std::pow(2*xi_2 - 1, 2) - 167)*(70*std::pow(xi_2 - 1, 7) - 1890*std::pow(xi_2 - 1, 5)*std::pow(2*xi_1 + xi_2 - 1, 2) + 6930*std::pow(xi_2 - 1, 3)*std::pow(2*xi_1 + xi_2 - 1, 4) - 6006*(xi_2 - 1)*std::pow(2*xi_1 + xi_2 - 1, 6))/(64*xi_2 - 64);
  53 => (1/128)*(19*xi_2 - 1)*(-1260*std::pow(xi_2 - 1, 6)*(8*xi_1 + 4*xi_2 - 4) + 55440*std::pow(xi_2 - 1, 4)*std::pow(2*xi_1 + xi_2 - 1, 3) - 144144*std::pow(xi_2 - 1, 2)*std::pow(2*xi_1 + xi_2 - 1, 5) + 102960*std::pow(2*xi_1 + xi_2 - 1, 7));
  54 => (1/128)*(-180180*std::pow(-xi_2 + 1, 5)*std::pow(-2*xi_1 - xi_2 + 1, 4) - 218790*(-xi_2 + 1)*std::pow(-2*xi_1 - xi_2 + 1, 8) + 630*std::pow(xi_2 - 1, 9) - 27720*std::pow(xi_2 - 1, 7)*std::pow(-2*xi_1 - xi_2 + 1, 2) - 360360*std::pow(xi_2 - 1, 3)*std::pow(-2*xi_1 - xi_2 + 1, 6))/(xi_2 - 1);
}

/-- Second derivatives of the basis of triangles (src/dg/generated/basis_tria_der_xi2.inc:24-189): the right-hand sides for `b` = 0, ..., 54. Literals `n.0L` are written `n`. -/
def triaDer2 : List Ex := exs% {
  0 => 0;
  1 => 3;
  2 => 1;
  3 => 20*xi_2 - 8;
  4 => 10*xi_1 + 10*xi_2 - 6;
  5 => 6*xi_1 + 2*xi_2 - 2;
  6 => 105*std::pow(xi_2, 2) - 90*xi_2 + 15;
  7 => 9*xi_2 + (21/4)*std::pow(2*xi_2 - 1, 2) + (1/4)*(168*xi_2 - 48)*(2*xi_1 + xi_2 - 1) - 17/4;
  8 => -7/2*std::pow(xi_2 - 1, 2) + (1/2)*(7*xi_2 - 1)*(12*xi_1 + 4*xi_2 - 4) + (21/2)*std::pow(2*xi_1 + xi_2 - 1, 2);
  9 => -(18*xi_1*std::pow(xi_2 - 1, 2) + 12*std::pow(xi_2 - 1, 3) - 15*(xi_2 - 1)*std::pow(2*xi_1 + xi_2 - 1, 2) - 5*std::pow(2*xi_1 + xi_2 - 1, 3))/(2*xi_2 - 2) + 2*(6*xi_1*std::pow(xi_2 - 1, 3) + 3*std::pow(xi_2 - 1, 4) - 5*(xi_2 - 1)*std::pow(2*xi_1 + xi_2 - 1, 3))/std::pow(2*xi_2 - 2, 2);
  10 => 504*std::pow(xi_2, 3) - 672*std::pow(xi_2, 2) + 252*xi_2 - 24;
  11 => (21/2)*std::pow(2*xi_2 - 1, 3) + (21/2)*std::pow(2*xi_2 - 1, 2) + (1/2)*(2*xi_1 + xi_2 - 1)*(168*xi_2 + 126*std::pow(2*xi_2 - 1, 2) - 84) - 1;
  12 => (1/2)*(72*xi_2 - 16)*(-std::pow(xi_2 - 1, 2) + 3*std::pow(2*xi_1 + xi_2 - 1, 2)) + (1/2)*(12*xi_1 + 4*xi_2 - 4)*(20*xi_2 + 9*std::pow(2*xi_2 - 1, 2) - 8);
  13 => -(9*xi_2 - 1)*(18*xi_1*std::pow(xi_2 - 1, 2) + 12*std::pow(xi_2 - 1, 3) - 15*(xi_2 - 1)*std::pow(2*xi_1 + xi_2 - 1, 2) - 5*std::pow(2*xi_1 + xi_2 - 1, 3))/(2*xi_2 - 2) - 9*(6*xi_1*std::pow(xi_2 - 1, 3) + 3*std::pow(xi_2 - 1, 4) - 5*(xi_2 - 1)*std::pow(2*xi_1 + xi_2 - 1, 3))/(2*xi_2 - 2) + 2*(9*xi_2 - 1)*(6*xi_1*std::pow(xi_2 - 1, 3) + 3*std::pow(xi_2 - 1, 4) - 5*(xi_2 - 1)*std::pow(2*xi_1 + xi_2 - 1, 3))/std::pow(2*xi_2 - 2, 2);
  14 => (3/2)*std::pow(xi_2 - 1, 3) - 15/4*std::pow(xi_2 - 1, 2)*(4*xi_1 + 2*xi_2 - 2) - 15/4*(2*xi_2 - 2)*std::pow(2*xi_1 + xi_2 - 1, 2) + (35/2)*std::pow(2*xi_1 + xi_2 - 1, 3);
  15 => 2310*std::pow(xi_2, 4) - 4200*std::pow(xi_2, 3) + 2520*std::pow(xi_2, 2) - 560*xi_2 + 35;
  16 => -11*xi_2 + (165/8)*std::pow(2*xi_2 - 1, 4) + (45/2)*std::pow(2*xi_2 - 1, 3) - 9/4*std::pow(2*xi_2 - 1, 2) + (1/8)*(2*xi_1 + xi_2 - 1)*(-144*xi_2 + 1320*std::pow(2*xi_2 - 1, 3) + 1080*std::pow(2*xi_2 - 1, 2) - 16) + 41/8;
  17 => (1/16)*(-std::pow(xi_2 - 1, 2) + 3*std::pow(2*xi_1 + xi_2 - 1, 2))*(1800*xi_2 + 990*std::pow(2*xi_2 - 1, 2) - 774) + (1/16)*(12*xi_1 + 4*xi_2 - 4)*(126*xi_2 + 165*std::pow(2*xi_2 - 1, 3) + 225*std::pow(2*xi_2 - 1, 2) - 68);
  18 => -(440*xi_2 - 80)*(6*xi_1*std::pow(xi_2 - 1, 3) + 3*std::pow(xi_2 - 1, 4) - 5*(xi_2 - 1)*std::pow(2*xi_1 + xi_2 - 1, 3))/(8*xi_2 - 8) - (140*xi_2 + 55*std::pow(2*xi_2 - 1, 2) - 51)*(18*xi_1*std::pow(xi_2 - 1, 2) + 12*std::pow(xi_2 - 1, 3) - 15*(xi_2 - 1)*std::pow(2*xi_1 + xi_2 - 1, 2) - 5*std::pow(2*xi_1 + xi_2 - 1, 3))/(8*xi_2 - 8) + 8*(140*xi_2 + 55*std::pow(2*xi_2 - 1, 2) - 51)*(6*xi_1*std::pow(xi_2 - 1, 3) + 3*std::pow(xi_2 - 1, 4) - 5*(xi_2 - 1)*std::pow(2*xi_1 + xi_2 - 1, 3))/std::pow(8*xi_2 - 8, 2);
  19 => (33/8)*std::pow(xi_2 - 1, 4) - 165/4*std::pow(xi_2 - 1, 2)*std::pow(2*xi_1 + xi_2 - 1, 2) + (1/8)*(11*xi_2 - 1)*(12*std::pow(xi_2 - 1, 3) - 30*std::pow(xi_2 - 1, 2)*(4*xi_1 + 2*xi_2 - 2) - 30*(2*xi_2 - 2)*std::pow(2*xi_1 + xi_2 - 1, 2) + 140*std::pow(2*xi_1 + xi_2 - 1, 3)) + (385/8)*std::pow(2*xi_1 + xi_2 - 1, 4);
  20 => (1/8)*(150*xi_1*std::pow(xi_2 - 1, 4) - 315*(-xi_2 + 1)*std::pow(-2*xi_1 - xi_2 + 1, 4) + 90*std::pow(xi_2 - 1, 5) - 210*std::pow(xi_2 - 1, 3)*std::pow(-2*xi_1 - xi_2 + 1, 2) + 210*std::pow(xi_2 - 1, 2)*std::pow(-2*xi_1 - xi_2 + 1, 3) - 63*std::pow(-2*xi_1 - xi_2 + 1, 5))/(xi_2 - 1) - 1/8*(30*xi_1*std::pow(xi_2 - 1, 5) + 63*(-xi_2 + 1)*std::pow(-2*xi_1 - xi_2 + 1, 5) + 15*std::pow(xi_2 - 1, 6) + 70*std::pow(xi_2 - 1, 3)*std::pow(-2*xi_1 - xi_2 + 1, 3))/std::pow(xi_2 - 1, 2);
  21 => 10296*std::pow(xi_2, 5) - 23760*std::pow(xi_2, 4) + 19800*std::pow(xi_2, 3) - 7200*std::pow(xi_2, 2) + 1080*xi_2 - 48;
  22 => -45/16*xi_2 + (1287/32)*std::pow(2*xi_2 - 1, 5) + (1485/32)*std::pow(2*xi_2 - 1, 4) - 165/16*std::pow(2*xi_2 - 1, 3) - 315/16*std::pow(2*xi_2 - 1, 2) - 1/32*(2*xi_1 + xi_2 - 1)*(5040*xi_2 - 12870*std::pow(2*xi_2 - 1, 4) - 11880*std::pow(2*xi_2 - 1, 3) + 1980*std::pow(2*xi_2 - 1, 2) - 2430) + 35/16;
  23 => (1/32)*(-std::pow(xi_2 - 1, 2) + 3*std::pow(2*xi_1 + xi_2 - 1, 2))*(2640*xi_2 + 5720*std::pow(2*xi_2 - 1, 3) + 6600*std::pow(2*xi_2 - 1, 2) - 1520) + (1/32)*(12*xi_1 + 4*xi_2 - 4)*(-200*xi_2 + 715*std::pow(2*xi_2 - 1, 4) + 1100*std::pow(2*xi_2 - 1, 3) + 330*std::pow(2*xi_2 - 1, 2) + 71);
  24 => -(1848*xi_2 + 858*std::pow(2*xi_2 - 1, 2) - 726)*(6*xi_1*std::pow(xi_2 - 1, 3) + 3*std::pow(xi_2 - 1, 4) - 5*(xi_2 - 1)*std::pow(2*xi_1 + xi_2 - 1, 3))/(8*xi_2 - 8) - (198*xi_2 + 143*std::pow(2*xi_2 - 1, 3) + 231*std::pow(2*xi_2 - 1, 2) - 92)*(18*xi_1*std::pow(xi_2 - 1, 2) + 12*std::pow(xi_2 - 1, 3) - 15*(xi_2 - 1)*std::pow(2*xi_1 + xi_2 - 1, 2) - 5*std::pow(2*xi_1 + xi_2 - 1, 3))/(8*xi_2 - 8) + 8*(6*xi_1*std::pow(xi_2 - 1, 3) + 3*std::pow(xi_2 - 1, 4) - 5*(xi_2 - 1)*std::pow(2*xi_1 + xi_2 - 1, 3))*(198*xi_2 + 143*std::pow(2*xi_2 - 1, 3) + 231*std::pow(2*xi_2 - 1, 2) - 92)/std::pow(8*xi_2 - 8, 2);
  25 => (1/16)*(312*xi_2 - 48)*(3*std::pow(xi_2 - 1, 4) - 30*std::pow(xi_2 - 1, 2)*std::pow(2*xi_1 + xi_2 - 1, 2) + 35*std::pow(2*xi_1 + xi_2 - 1, 4)) + (1/16)*(108*xi_2 + 39*std::pow(2*xi_2 - 1, 2) - 37)*(12*std::pow(xi_2 - 1, 3) - 30*std::pow(xi_2 - 1, 2)*(4*xi_1 + 2*xi_2 - 2) - 30*(2*xi_2 - 2)*std::pow(2*xi_1 + xi_2 - 1, 2) + 140*std::pow(2*xi_1 + xi_2 - 1, 3));
  26 => (1/8)*(13*xi_2 - 1)*(150*xi_1*std::pow(xi_2 - 1, 4) - 315*(-xi_2 + 1)*std::pow(-2*xi_1 - xi_2 + 1, 4) + 90*std::pow(xi_2 - 1, 5) - 210*std::pow(xi_2 - 1, 3)*std::pow(-2*xi_1 - xi_2 + 1, 2) + 210*std::pow(xi_2 - 1, 2)*std::pow(-2*xi_1 - xi_2 + 1, 3) - 63*std::pow(-2*xi_1 - xi_2 + 1, 5))/(xi_2 - 1) + (13/8)*(30*xi_1*std::pow(xi_2 - 1, 5) + 63*(-xi_2 + 1)*std::pow(-2*xi_1 - xi_2 + 1, 5) + 15*std::pow(xi_2 - 1, 6) + 70*std::pow(xi_2 - 1, 3)*std::pow(-2*xi_1 - xi_2 + 1, 3))/(xi_2 - 1) - 1/8*(13*xi_2 - 1)*(30*xi_1*std::pow(xi_2 - 1, 5) + 63*(-xi_2 + 1)*std::pow(-2*xi_1 - xi_2 + 1, 5) + 15*std::pow(xi_2 - 1, 6) + 70*std::pow(xi_2 - 1, 3)*std::pow(-2*xi_1 - xi_2 + 1, 3))/std::pow(xi_2 - 1, 2);
  27 => -15/8*std::pow(xi_2 - 1, 5) + (105/16)*std::pow(xi_2 - 1, 4)*(4*xi_1 + 2*xi_2 - 2) + (105/4)*std::pow(xi_2 - 1, 3)*std::pow(2*xi_1 + xi_2 - 1, 2) - 315/4*std::pow(xi_2 - 1, 2)*std::pow(2*xi_1 + xi_2 - 1, 3) - 315/16*(2*xi_2 - 2)*std::pow(2*xi_1 + xi_2 - 1, 4) + (693/8)*std::pow(2*xi_1 + xi_2 - 1, 5);
  28 => 45045*std::pow(xi_2, 6) - 126126*std::pow(xi_2, 5) + 135135*std::pow(xi_2, 4) - 69300*std::pow(xi_2, 3) + 17325*std::pow(xi_2, 2) - 1890*xi_2 + 63;
  29 => (195/16)*xi_2 + (5005/64)*std::pow(2*xi_2 - 1, 6) + (3003/32)*std::pow(2*xi_2 - 1, 5) - 2145/64*std::pow(2*xi_2 - 1, 4) - 935/16*std::pow(2*xi_2 - 1, 3) - 165/64*std::pow(2*xi_2 - 1, 2) - 1/64*(2*xi_1 + xi_2 - 1)*(1320*xi_2 - 60060*std::pow(2*xi_2 - 1, 5) - 60060*std::pow(2*xi_2 - 1, 4) + 17160*std::pow(2*xi_2 - 1, 3) + 22440*std::pow(2*xi_2 - 1, 2) - 1440) - 365/64;
  30 => (1/64)*(-std::pow(xi_2 - 1, 2) + 3*std::pow(2*xi_1 + xi_2 - 1, 2))*(-7920*xi_2 + 30030*std::pow(2*xi_2 - 1, 4) + 40040*std::pow(2*xi_2 - 1, 3) + 8580*std::pow(2*xi_2 - 1, 2) + 3190) + (1/64)*(12*xi_1 + 4*xi_2 - 4)*(-770*xi_2 + 3003*std::pow(2*xi_2 - 1, 5) + 5005*std::pow(2*xi_2 - 1, 4) + 1430*std::pow(2*xi_2 - 1, 3) - 990*std::pow(2*xi_2 - 1, 2) + 386);
  31 => -(6*xi_1*std::pow(xi_2 - 1, 3) + 3*std::pow(xi_2 - 1, 4) - 5*(xi_2 - 1)*std::pow(2*xi_1 + xi_2 - 1, 3))*(10608*xi_2 + 10920*std::pow(2*xi_2 - 1, 3) + 15288*std::pow(2*xi_2 - 1, 2) - 5136)/(32*xi_2 - 32) - (18*xi_1*std::pow(xi_2 - 1, 2) + 12*std::pow(xi_2 - 1, 3) - 15*(xi_2 - 1)*std::pow(2*xi_1 + xi_2 - 1, 2) - 5*std::pow(2*xi_1 + xi_2 - 1, 3))*(168*xi_2 + 1365*std::pow(2*xi_2 - 1, 4) + 2548*std::pow(2*xi_2 - 1, 3) + 1326*std::pow(2*xi_2 - 1, 2) - 127)/(32*xi_2 - 32) + 32*(6*xi_1*std::pow(xi_2 - 1, 3) + 3*std::pow(xi_2 - 1, 4) - 5*(xi_2 - 1)*std::pow(2*xi_1 + xi_2 - 1, 3))*(168*xi_2 + 1365*std::pow(2*xi_2 - 1, 4) + 2548*std::pow(2*xi_2 - 1, 3) + 1326*std::pow(2*xi_2 - 1, 2) - 127)/std::pow(32*xi_2 - 32, 2);
  32 => (1/64)*(6552*xi_2 + 2730*std::pow(2*xi_2 - 1, 2) - 2418)*(3*std::pow(xi_2 - 1, 4) - 30*std::pow(xi_2 - 1, 2)*std::pow(2*xi_1 + xi_2 - 1, 2) + 35*std::pow(2*xi_1 + xi_2 - 1, 4)) + (1/64)*(858*xi_2 + 455*std::pow(2*xi_2 - 1, 3) + 819*std::pow(2*xi_2 - 1, 2) - 372)*(12*std::pow(xi_2 - 1, 3) - 30*std::pow(xi_2 - 1, 2)*(4*xi_1 + 2*xi_2 - 2) - 30*(2*xi_2 - 2)*std::pow(2*xi_1 + xi_2 - 1, 2) + 140*std::pow(2*xi_1 + xi_2 - 1, 3));
  33 => (1/32)*(840*xi_2 - 112)*(30*xi_1*std::pow(xi_2 - 1, 5) + 63*(-xi_2 + 1)*std::pow(-2*xi_1 - xi_2 + 1, 5) + 15*std::pow(xi_2 - 1, 6) + 70*std::pow(xi_2 - 1, 3)*std::pow(-2*xi_1 - xi_2 + 1, 3))/(xi_2 - 1) + (1/32)*(308*xi_2 + 105*std::pow(2*xi_2 - 1, 2) - 101)*(150*xi_1*std::pow(xi_2 - 1, 4) - 315*(-xi_2 + 1)*std::pow(-2*xi_1 - xi_2 + 1, 4) + 90*std::pow(xi_2 - 1, 5) - 210*std::pow(xi_2 - 1, 3)*std::pow(-2*xi_1 - xi_2 + 1, 2) + 210*std::pow(xi_2 - 1, 2)*std::pow(-2*xi_1 - xi_2 + 1, 3) - 63*std::pow(-2*xi_1 - xi_2 + 1, 5))/(xi_2 - 1) - 1/32*(308*xi_2 + 105*std::pow(2*xi_2 - 1, 2) - 101)*(30*xi_1*std::pow(xi_2 - 1, 5) + 63*(-xi_2 + 1)*std::pow(-2*xi_1 - xi_2 + 1, 5) + 15*std::pow(xi_2 - 1, 6) + 70*std::pow(xi_2 - 1, 3)*std::pow(-2*xi_1 - xi_2 + 1, 3))/std::pow(xi_2 - 1, 2);
  34 => -75/16*std::pow(xi_2 - 1, 6) + (1575/16)*std::pow(xi_2 - 1, 4)*std::pow(2*xi_1 + xi_2 - 1, 2) - 4725/16*std::pow(xi_2 - 1, 2)*std::pow(2*xi_1 + xi_2 - 1, 4) + (1/16)*(15*xi_2 - 1)*(-30*std::pow(xi_2 - 1, 5) + 105*std::pow(xi_2 - 1, 4)*(4*xi_1 + 2*xi_2 - 2) + 420*std::pow(xi_2 - 1, 3)*std::pow(2*xi_1 + xi_2 - 1, 2) - 1260*std::pow(xi_2 - 1, 2)*std::pow(2*xi_1 + xi_2 - 1, 3) - 315*(2*xi_2 - 2)*std::pow(2*xi_1 + xi_2 - 1, 4) + 1386*std::pow(2*xi_1 + xi_2 - 1, 5)) + (3465/16)*std::pow(2*xi_1 + xi_2 - 1, 6);
  35 => (1/16)*(-490*xi_1*std::pow(xi_2 - 1, 6) - 3003*(-xi_2 + 1)*std::pow(2*xi_1 + xi_2 - 1, 6) - 280*std::pow(xi_2 - 1, 7) + 945*std::pow(xi_2 - 1, 5)*std::pow(2*xi_1 + xi_2 - 1, 2) + 1575*std::pow(xi_2 - 1, 4)*std::pow(2*xi_1 + xi_2 - 1, 3) - 3465*std::pow(xi_2 - 1, 3)*std::pow(2*xi_1 + xi_2 - 1, 4) - 2079*std::pow(xi_2 - 1, 2)*std::pow(2*xi_1 + xi_2 - 1, 5) + 429*std::pow(2*xi_1 + xi_2 - 1, 7))/(xi_2 - 1) - 1/16*(-70*xi_1*std::pow(xi_2 - 1, 7) - 429*(-xi_2 + 1)*std::pow(2*xi_1 + xi_2 - 1, 7) - 35*std::pow(xi_2 - 1, 8) + 315*std::pow(xi_2 - 1, 5)*std::pow(2*xi_1 + xi_2 - 1, 3) - 693*std::pow(xi_2 - 1, 3)*std::pow(2*xi_1 + xi_2 - 1, 5))/std::pow(xi_2 - 1, 2);
  36 => 194480*std::pow(xi_2, 7) - 640640*std::pow(xi_2, 6) + 840840*std::pow(xi_2, 5) - 560560*std::pow(xi_2, 4) + 200200*std::pow(xi_2, 3) - 36960*std::pow(xi_2, 2) + 3080*xi_2 - 80;
  37 => (77/16)*xi_2 + (2431/16)*std::pow(2*xi_2 - 1, 7) + (3003/16)*std::pow(2*xi_2 - 1, 6) - 3003/32*std::pow(2*xi_2 - 1, 5) - 5005/32*std::pow(2*xi_2 - 1, 4) + (231/8)*std::pow(2*xi_2 - 1, 2) + (1/32)*(2*xi_1 + xi_2 - 1)*(7392*xi_2 + 68068*std::pow(2*xi_2 - 1, 6) + 72072*std::pow(2*xi_2 - 1, 5) - 30030*std::pow(2*xi_2 - 1, 4) - 40040*std::pow(2*xi_2 - 1, 3) - 3542) - 49/16;
  38 => (1/32)*(-std::pow(xi_2 - 1, 2) + 3*std::pow(2*xi_1 + xi_2 - 1, 2))*(-6240*xi_2 + 37128*std::pow(2*xi_2 - 1, 5) + 54600*std::pow(2*xi_2 - 1, 4) + 10920*std::pow(2*xi_2 - 1, 3) - 10920*std::pow(2*xi_2 - 1, 2) + 3216) + (1/32)*(12*xi_1 + 4*xi_2 - 4)*(96*xi_2 + 3094*std::pow(2*xi_2 - 1, 6) + 5460*std::pow(2*xi_2 - 1, 5) + 1365*std::pow(2*xi_2 - 1, 4) - 1820*std::pow(2*xi_2 - 1, 3) - 780*std::pow(2*xi_2 - 1, 2) - 23);
  39 => -(6*xi_1*std::pow(xi_2 - 1, 3) + 3*std::pow(xi_2 - 1, 4) - 5*(xi_2 - 1)*std::pow(2*xi_1 + xi_2 - 1, 3))*(15470*std::pow(2*xi_2 - 1, 4) + 25480*std::pow(2*xi_2 - 1, 3) + 10920*std::pow(2*xi_2 - 1, 2) - 390)/(16*xi_2 - 16) - (18*xi_1*std::pow(xi_2 - 1, 2) + 12*std::pow(xi_2 - 1, 3) - 15*(xi_2 - 1)*std::pow(2*xi_1 + xi_2 - 1, 2) - 5*std::pow(2*xi_1 + xi_2 - 1, 3))*(-390*xi_2 + 1547*std::pow(2*xi_2 - 1, 5) + 3185*std::pow(2*xi_2 - 1, 4) + 1820*std::pow(2*xi_2 - 1, 3) + 174)/(16*xi_2 - 16) + 16*(6*xi_1*std::pow(xi_2 - 1, 3) + 3*std::pow(xi_2 - 1, 4) - 5*(xi_2 - 1)*std::pow(2*xi_1 + xi_2 - 1, 3))*(-390*xi_2 + 1547*std::pow(2*xi_2 - 1, 5) + 3185*std::pow(2*xi_2 - 1, 4) + 1820*std::pow(2*xi_2 - 1, 3) + 174)/std::pow(16*xi_2 - 16, 2);
  40 => (1/32)*(3*std::pow(xi_2 - 1, 4) - 30*std::pow(xi_2 - 1, 2)*std::pow(2*xi_1 + xi_2 - 1, 2) + 35*std::pow(2*xi_1 + xi_2 - 1, 4))*(6720*xi_2 + 4760*std::pow(2*xi_2 - 1, 3) + 7560*std::pow(2*xi_2 - 1, 2) - 3024) + (1/32)*(12*std::pow(xi_2 - 1, 3) - 30*std::pow(xi_2 - 1, 2)*(4*xi_1 + 2*xi_2 - 2) - 30*(2*xi_2 - 2)*std::pow(2*xi_1 + xi_2 - 1, 2) + 140*std::pow(2*xi_1 + xi_2 - 1, 3))*(336*xi_2 + 595*std::pow(2*xi_2 - 1, 4) + 1260*std::pow(2*xi_2 - 1, 3) + 840*std::pow(2*xi_2 - 1, 2) - 171);
  41 => (1/8)*(1320*xi_2 + 510*std::pow(2*xi_2 - 1, 2) - 465)*(30*xi_1*std::pow(xi_2 - 1, 5) + 63*(-xi_2 + 1)*std::pow(-2*xi_1 - xi_2 + 1, 5) + 15*std::pow(xi_2 - 1, 6) + 70*std::pow(xi_2 - 1, 3)*std::pow(-2*xi_1 - xi_2 + 1, 3))/(xi_2 - 1) + (1/8)*(195*xi_2 + 85*std::pow(2*xi_2 - 1, 3) + 165*std::pow(2*xi_2 - 1, 2) - 81)*(150*xi_1*std::pow(xi_2 - 1, 4) - 315*(-xi_2 + 1)*std::pow(-2*xi_1 - xi_2 + 1, 4) + 90*std::pow(xi_2 - 1, 5) - 210*std::pow(xi_2 - 1, 3)*std::pow(-2*xi_1 - xi_2 + 1, 2) + 210*std::pow(xi_2 - 1, 2)*std::pow(-2*xi_1 - xi_2 + 1, 3) - 63*std::pow(-2*xi_1 - xi_2 + 1, 5))/(xi_2 - 1) - 1/8*(195*xi_2 + 85*std::pow(2*xi_2 - 1, 3) + 165*std::pow(2*xi_2 - 1, 2) - 81)*(30*xi_1*std::pow(xi_2 - 1, 5) + 63*(-xi_2 + 1)*std::pow(-2*xi_1 - xi_2 + 1, 5) + 15*std::pow(xi_2 - 1, 6) + 70*std::pow(xi_2 - 1, 3)*std::pow(-2*xi_1 - xi_2 + 1, 3))/std::pow(xi_2 - 1, 2);
  42 => (1/16)*(272*xi_2 - 32)*(-5*std::pow(xi_2 - 1, 6) + 105*std::pow(xi_2 - 1, 4)*std::pow(2*xi_1 + xi_2 - 1, 2) - 315*std::pow(xi_2 - 1, 2)*std::pow(2*xi_1 + xi_2 - 1, 4) + 231*std::pow(2*xi_1 + xi_2 - 1, 6)) + (1/16)*(104*xi_2 + 34*std::pow(2*xi_2 - 1, 2) - 33)*(-30*std::pow(xi_2 - 1, 5) + 105*std::pow(xi_2 - 1, 4)*(4*xi_1 + 2*xi_2 - 2) + 420*std::pow(xi_2 - 1, 3)*std::pow(2*xi_1 + xi_2 - 1, 2) - 1260*std::pow(xi_2 - 1, 2)*std::pow(2*xi_1 + xi_2 - 1, 3) - 315*(2*xi_2 - 2)*std::pow(2*xi_1 + xi_2 - 1, 4) + 1386*std::pow(2*xi_1 + xi_2 - 1, 5));
  43 => -(17*xi_2 - 1)*(490*xi_1*std::pow(xi_2 - 1, 6) + 280*std::pow(xi_2 - 1, 7) - 945*std::pow(xi_2 - 1, 5)*std::pow(2*xi_1 + xi_2 - 1, 2) - 1575*std::pow(xi_2 - 1, 4)*std::pow(2*xi_1 + xi_2 - 1, 3) + 3465*std::pow(xi_2 - 1, 3)*std::pow(2*xi_1 + xi_2 - 1, 4) + 2079*std::pow(xi_2 - 1, 2)*std::pow(2*xi_1 + xi_2 - 1, 5) - 3003*(xi_2 - 1)*std::pow(2*xi_1 + xi_2 - 1, 6) - 429*std::pow(2*xi_1 + xi_2 - 1, 7))/(16*xi_2 - 16) - 17*(70*xi_1*std::pow(xi_2 - 1, 7) + 35*std::pow(xi_2 - 1, 8) - 315*std::pow(xi_2 - 1, 5)*std::pow(2*xi_1 + xi_2 - 1, 3) + 693*std::pow(xi_2 - 1, 3)*std::pow(2*xi_1 + xi_2 - 1, 5) - 429*(xi_2 - 1)*std::pow(2*xi_1 + xi_2 - 1, 7))/(16*xi_2 - 16) + 16*(17*xi_2 - 1)*(70*xi_1*std::pow(xi_2 - 1, 7) + 35*std::pow(xi_2 - 1, 8) - 315*std::pow(xi_2 - 1, 5)*std::pow(2*xi_1 + xi_2 - 1, 3) + 693*std::pow(xi_2 - 1, 3)*std::pow(2*xi_1 + xi_2 - 1, 5) - 429*(xi_2 - 1)*std::pow(2*xi_1 + xi_2 - 1, 7))/std::pow(16*xi_2 - 16, 2);
  44 => (35/16)*std::pow(xi_2 - 1, 7) - 315/32*std::pow(xi_2 - 1, 6)*(4*xi_1 + 2*xi_2 - 2) - 945/16*std::pow(xi_2 - 1, 5)*std::pow(2*xi_1 + xi_2 - 1, 2) + (3465/16)*std::pow(xi_2 - 1, 4)*std::pow(2*xi_1 + xi_2 - 1, 3) + (3465/16)*std::pow(xi_2 - 1, 3)*std::pow(2*xi_1 + xi_2 - 1, 4) - 9009/16*std::pow(xi_2 - 1, 2)*std::pow(2*xi_1 + xi_2 - 1, 5) - 3003/32*(2*xi_2 - 2)*std::pow(2*xi_1 + xi_2 - 1, 6) + (6435/16)*std::pow(2*xi_1 + xi_2 - 1, 7);
  45 => 831402*std::pow(xi_2, 8) - 3150576*std::pow(xi_2, 7) + 4900896*std::pow(xi_2, 6) - 4036032*std::pow(xi_2, 5) + 1891890*std::pow(xi_2, 4) - 504504*std::pow(xi_2, 3) + 72072*std::pow(xi_2, 2) - 4752*xi_2 + 99;
  46 => -105/8*xi_2 + (37791/128)*std::pow(2*xi_2 - 1, 8) + (5967/16)*std::pow(2*xi_2 - 1, 7) - 7735/32*std::pow(2*xi_2 - 1, 6) - 6279/16*std::pow(2*xi_2 - 1, 5) + (1365/64)*std::pow(2*xi_2 - 1, 4) + (1729/16)*std::pow(2*xi_2 - 1, 3) + (273/32)*std::pow(2*xi_2 - 1, 2) + (1/128)*(2*xi_1 + xi_2 - 1)*(8736*xi_2 + 604656*std::pow(2*xi_2 - 1, 7) + 668304*std::pow(2*xi_2 - 1, 6) - 371280*std::pow(2*xi_2 - 1, 5) - 502320*std::pow(2*xi_2 - 1, 4) + 21840*std::pow(2*xi_2 - 1, 3) + 82992*std::pow(2*xi_2 - 1, 2) - 6048) + 791/128;
  47 => (1/64)*(-std::pow(xi_2 - 1, 2) + 3*std::pow(2*xi_1 + xi_2 - 1, 2))*(6552*xi_2 + 176358*std::pow(2*xi_2 - 1, 6) + 278460*std::pow(2*xi_2 - 1, 5) + 46410*std::pow(2*xi_2 - 1, 4) - 91000*std::pow(2*xi_2 - 1, 3) - 30030*std::pow(2*xi_2 - 1, 2) - 2366) + (1/64)*(12*xi_1 + 4*xi_2 - 4)*(910*xi_2 + 12597*std::pow(2*xi_2 - 1, 7) + 23205*std::pow(2*xi_2 - 1, 6) + 4641*std::pow(2*xi_2 - 1, 5) - 11375*std::pow(2*xi_2 - 1, 4) - 5005*std::pow(2*xi_2 - 1, 3) + 819*std::pow(2*xi_2 - 1, 2) - 448);
  48 => -(6*xi_1*std::pow(xi_2 - 1, 3) + 3*std::pow(xi_2 - 1, 4) - 5*(xi_2 - 1)*std::pow(2*xi_1 + xi_2 - 1, 3))*(-15960*xi_2 + 81396*std::pow(2*xi_2 - 1, 5) + 149940*std::pow(2*xi_2 - 1, 4) + 71400*std::pow(2*xi_2 - 1, 3) - 5880*std::pow(2*xi_2 - 1, 2) + 7392)/(32*xi_2 - 32) - (18*xi_1*std::pow(xi_2 - 1, 2) + 12*std::pow(xi_2 - 1, 3) - 15*(xi_2 - 1)*std::pow(2*xi_1 + xi_2 - 1, 2) - 5*std::pow(2*xi_1 + xi_2 - 1, 3))*(-588*xi_2 + 6783*std::pow(2*xi_2 - 1, 6) + 14994*std::pow(2*xi_2 - 1, 5) + 8925*std::pow(2*xi_2 - 1, 4) - 980*std::pow(2*xi_2 - 1, 3) - 1995*std::pow(2*xi_2 - 1, 2) + 317)/(32*xi_2 - 32) + 32*(6*xi_1*std::pow(xi_2 - 1, 3) + 3*std::pow(xi_2 - 1, 4) - 5*(xi_2 - 1)*std::pow(2*xi_1 + xi_2 - 1, 3))*(-588*xi_2 + 6783*std::pow(2*xi_2 - 1, 6) + 14994*std::pow(2*xi_2 - 1, 5) + 8925*std::pow(2*xi_2 - 1, 4) - 980*std::pow(2*xi_2 - 1, 3) - 1995*std::pow(2*xi_2 - 1, 2) + 317)/std::pow(32*xi_2 - 32, 2);
  49 => (1/64)*(3*std::pow(xi_2 - 1, 4) - 30*std::pow(xi_2 - 1, 2)*std::pow(2*xi_1 + xi_2 - 1, 2) + 35*std::pow(2*xi_1 + xi_2 - 1, 4))*(9360*xi_2 + 29070*std::pow(2*xi_2 - 1, 4) + 55080*std::pow(2*xi_2 - 1, 3) + 31620*std::pow(2*xi_2 - 1, 2) - 5010) + (1/64)*(12*std::pow(xi_2 - 1, 3) - 30*std::pow(xi_2 - 1, 2)*(4*xi_1 + 2*xi_2 - 2) - 30*(2*xi_2 - 2)*std::pow(2*xi_1 + xi_2 - 1, 2) + 140*std::pow(2*xi_1 + xi_2 - 1, 3))*(-330*xi_2 + 2907*std::pow(2*xi_2 - 1, 5) + 6885*std::pow(2*xi_2 - 1, 4) + 5270*std::pow(2*xi_2 - 1, 3) + 1170*std::pow(2*xi_2 - 1, 2) + 114);
  50 => (1/32)*(13872*xi_2 + 7752*std::pow(2*xi_2 - 1, 3) + 13464*std::pow(2*xi_2 - 1, 2) - 5968)*(30*xi_1*std::pow(xi_2 - 1, 5) + 63*(-xi_2 + 1)*std::pow(-2*xi_1 - xi_2 + 1, 5) + 15*std::pow(xi_2 - 1, 6) + 70*std::pow(xi_2 - 1, 3)*std::pow(-2*xi_1 - xi_2 + 1, 3))/(xi_2 - 1) + (1/32)*(968*xi_2 + 969*std::pow(2*xi_2 - 1, 4) + 2244*std::pow(2*xi_2 - 1, 3) + 1734*std::pow(2*xi_2 - 1, 2) - 455)*(150*xi_1*std::pow(xi_2 - 1, 4) - 315*(-xi_2 + 1)*std::pow(-2*xi_1 - xi_2 + 1, 4) + 90*std::pow(xi_2 - 1, 5) - 210*std::pow(xi_2 - 1, 3)*std::pow(-2*xi_1 - xi_2 + 1, 2) + 210*std::pow(xi_2 - 1, 2)*std::pow(-2*xi_1 - xi_2 + 1, 3) - 63*std::pow(-2*xi_1 - xi_2 + 1, 5))/(xi_2 - 1) - 1/32*(30*xi_1*std::pow(xi_2 - 1, 5) + 63*(-xi_2 + 1)*std::pow(-2*xi_1 - xi_2 + 1, 5) + 15*std::pow(xi_2 - 1, 6) + 70*std::pow(xi_2 - 1, 3)*std::pow(-2*xi_1 - xi_2 + 1, 3))*(968*xi_2 + 969*std::pow(2*xi_2 - 1, 4) + 2244*std::pow(2*xi_2 - 1, 3) + 1734*std::pow(2*xi_2 - 1, 2) - 455)/std::pow(xi_2 - 1, 2);
  51 => (1/128)*(15912*xi_2 + 5814*std::pow(2*xi_2 - 1, 2) - 5406)*(-5*std::pow(xi_2 - 1, 6) + 105*std::pow(xi_2 - 1, 4)*std::pow(2*xi_1 + xi_2 - 1, 2) - 315*std::pow(xi_2 - 1, 2)*std::pow(2*xi_1 + xi_2 - 1, 4) + 231*std::pow(2*xi_1 + xi_2 - 1, 6)) + (1/128)*(2550*xi_2 + 969*std::pow(2*xi_2 - 1, 3) + 1989*std::pow(2*xi_2 - 1, 2) - 1028)*(-30*std::pow(xi_2 - 1, 5) + 105*std::pow(xi_2 - 1, 4)*(4*xi_1 + 2*xi_2 - 2) + 420*std::pow(xi_2 - 1, 3)*std::pow(2*xi_1 + xi_2 - 1, 2) - 1260*std::pow(xi_2 - 1, 2)*std::pow(2*xi_1 + xi_2 - 1, 3) - 315*(2*xi_2 - 2)*std::pow(2*xi_1 + xi_2 - 1, 4) + 1386*std::pow(2*xi_1 + xi_2 - 1, 5));
  52 => -(1368*xi_2 - 144)*(70*xi_1*std::pow(xi_2 - 1, 7) + 35*std::pow(xi_2 - 1, 8) - 315*std::pow(xi_2 - 1, 5)*std::pow(2*xi_1 + xi_2 - 1, 3) + 693*std::pow(xi_2 - 1, 3)*std::pow(2*xi_1 + xi_2 - 1, 5) - 429*(xi_2 - 1)*std::pow(2*xi_1 + xi_2 - 1, 7))/(64*xi_2 - 64) - (540*xi_2 + 171*std::pow(2*xi_2 - 1, 2) - 167)*(490*xi_1*std::pow(xi_2 - 1, 6) + 280*std::pow(xi_2 - 1, 7) - 945*std::pow(xi_2 - 1, 5)*std::pow(2*xi_1 + xi_2 - 1, 2) - 1575*std::pow(xi_2 - 1, 4)*std::pow(2*xi_1 + xi_2 - 1, 3) + 3465*std::pow(xi_2 - 1, 3)*std::pow(2*xi_1 + xi_2 - 1, 4) + 2079*std::pow(xi_2 - 1, 2)*std::pow(2*xi_1 + xi_2 - 1, 5) - 3003*(xi_2 - 1)*std::pow(2*xi_1 + xi_2 - 1, 6) - 429*std::pow(2*xi_1 + xi_2 - 1, 7))/(64*xi_2 - 64) + 64*(540*xi_2 + 171*std::pow(2*xi_2 - 1, 2) - 167)*(70*xi_1*std::pow(xi_2 - 1, 7) + 35*std::pow(xi_2 - 1, 8) - 315*std::pow(xi_2 - 1, 5)*std::pow(2*xi_1 + xi_2 - 1, 3) + 693*std::pow(xi_2 - 1, 3)*std::pow(2*xi_1 + xi_2 - 1, 5) - 429*(xi_2 - 1)*std::pow(2*xi_1 + xi_2 - 1, 7))/std::pow(64*xi_2 - 64, 2);
  53 => (665/128)*std::pow(xi_2 - 1, 8) - 5985/32*std::pow(xi_2 - 1, 6)*std::pow(2*xi_1 + xi_2 - 1, 2) + (65835/64)*std::pow(xi_2 - 1, 4)*std::pow(2*xi_1 + xi_2 - 1, 4) - 57057/32*std::pow(xi_2 - 1, 2)*std::pow(2*xi_1 + xi_2 - 1, 6) + (1/128)*(19*xi_2 - 1)*(280*std::pow(xi_2 - 1, 7) - 1260*std::pow(xi_2 - 1, 6)*(4*xi_1 + 2*xi_2 - 2) - 7560*std::pow(xi_2 - 1, 5)*std::pow(2*xi_1 + xi_2 - 1, 2) + 27720*std::pow(xi_2 - 1, 4)*std::pow(2*xi_1 + xi_2 - 1, 3) + 27720*std::pow(xi_2 - 1, 3)*std::pow(2*xi_1 + xi_2 - 1, 4) - 72072*std::pow(xi_2 - 1, 2)*std::pow(2*xi_1 + xi_2 - 1, 5) - 12012*(2*xi_2 - 2)*std::pow(2*xi_1 + xi_2 - 1, 6) + 51480*std::pow(2*xi_1 + xi_2 - 1, 7)) + (122265/128)*std::pow(2*xi_1 + xi_2 - 1, 8);
  54 => (1/128)*(5670*xi_1*std::pow(xi_2 - 1, 8) - 90090*std::pow(-xi_2 + 1, 5)*std::pow(-2*xi_1 - xi_2 + 1, 4) - 90090*std::pow(-xi_2 + 1, 4)*std::pow(-2*xi_1 - xi_2 + 1, 5) - 109395*(-xi_2 + 1)*std::pow(-2*xi_1 - xi_2 + 1, 8) + 3150*std::pow(xi_2 - 1, 9) - 13860*std::pow(xi_2 - 1, 7)*std::pow(-2*xi_1 - xi_2 + 1, 2) + 32340*std::pow(xi_2 - 1, 6)*std::pow(-2*xi_1 - xi_2 + 1, 3) - 180180*std::pow(xi_2 - 1, 3)*std::pow(-2*xi_1 - xi_2 + 1, 6) + 77220*std::pow(xi_2 - 1, 2)*std::pow(-2*xi_1 - xi_2 + 1, 7) - 12155*std::pow(-2*xi_1 - xi_2 + 1, 9))/(xi_2 - 1) - 1/128*(630*xi_1*std::pow(xi_2 - 1, 9) + 18018*std::pow(-xi_2 + 1, 5)*std::pow(-2*xi_1 - xi_2 + 1, 5) + 12155*(-xi_2 + 1)*std::pow(-2*xi_1 - xi_2 + 1, 9) + 315*std::pow(xi_2 - 1, 10) + 4620*std::pow(xi_2 - 1, 7)*std::pow(-2*xi_1 - xi_2 + 1, 3) + 25740*std::pow(xi_2 - 1, 3)*std::pow(-2*xi_1 - xi_2 + 1, 7))/std::pow(xi_2 - 1, 2);
}

end Edge.Basis
