#include <stdio.h>
#include <stdlib.h>
#include <string.h>
#include <stdint.h>
typedef unsigned __int128 u128; typedef uint64_t u64;
#define L 7
typedef struct{u64 v[L];} F;
static F N,R2,ONE; static u64 ninv;
static int cmp(const F*a,const F*b){for(int i=L-1;i>=0;i--){if(a->v[i]<b->v[i])return -1;if(a->v[i]>b->v[i])return 1;}return 0;}
static u64 subn(F*r,const F*a,const F*b){u64 c=0;for(int i=0;i<L;i++){u128 t=(u128)a->v[i]-b->v[i]-c;r->v[i]=(u64)t;c=(t>>64)&1;}return c;}
static u64 addn(F*r,const F*a,const F*b){u64 c=0;for(int i=0;i<L;i++){u128 t=(u128)a->v[i]+b->v[i]+c;r->v[i]=(u64)t;c=t>>64;}return c;}
static inline void add(F*r,const F*a,const F*b){addn(r,a,b);if(cmp(r,&N)>=0)subn(r,r,&N);}
static inline void sub(F*r,const F*a,const F*b){if(subn(r,a,b))addn(r,r,&N);}
static inline void mul(F*r,const F*a,const F*b){
 u64 t[L+2]={0};
 for(int i=0;i<L;i++){u128 c=0;
  for(int j=0;j<L;j++){u128 x=(u128)a->v[j]*b->v[i]+t[j]+(u64)c;t[j]=(u64)x;c=x>>64;}
  u128 y=(u128)t[L]+(u64)c;t[L]=(u64)y;t[L+1]=y>>64;
  u64 m=t[0]*ninv; u128 x=(u128)m*N.v[0]+t[0];c=x>>64;
  for(int j=1;j<L;j++){x=(u128)m*N.v[j]+t[j]+(u64)c;t[j-1]=(u64)x;c=x>>64;}
  y=(u128)t[L]+(u64)c;t[L-1]=(u64)y;t[L]=t[L+1]+(u64)(y>>64);}
 memcpy(r->v,t,8*L);
 if(t[L]||cmp(r,&N)>=0)subn(r,r,&N);}
static int iszero(const F*a){for(int i=0;i<L;i++)if(a->v[i])return 0;return 1;}
static void half(F*a){for(int i=0;i<L;i++)a->v[i]=(a->v[i]>>1)|(i<L-1?a->v[i+1]<<63:0);}
static void gcd(F*g,const F*a0){F a=*a0,b=N; // N odd
 if(iszero(&a)){*g=N;return;}
 while(!(a.v[0]&1))half(&a);
 while(1){int c=cmp(&a,&b);if(c==0)break; if(c>0){subn(&a,&a,&b);while(!(a.v[0]&1))half(&a);}else{subn(&b,&b,&a);while(!(b.v[0]&1))half(&b);}}
 *g=a;}
static void parse(F*r,const char*s){memset(r,0,sizeof*r);for(;*s;s++){u128 c=*s-'0';for(int i=0;i<L;i++){u128 x=(u128)r->v[i]*10+(u64)c;r->v[i]=(u64)x;c=x>>64;}}}
static void pr(const F*a0){F a=*a0;char buf[200];int n=0;while(!iszero(&a)){u64 rem=0;for(int i=L-1;i>=0;i--){u128 x=((u128)rem<<64)|a.v[i];a.v[i]=x/10;rem=x%10;}buf[n++]='0'+rem;}while(n)putchar(buf[--n]);putchar('\n');fflush(stdout);}
static F a24;typedef struct{F x,z;}P;
static void dbl(P*r,const P*p){F s,d,t,u;add(&s,&p->x,&p->z);mul(&s,&s,&s);sub(&d,&p->x,&p->z);mul(&d,&d,&d);sub(&t,&s,&d);mul(&r->x,&s,&d);mul(&u,&a24,&t);add(&u,&u,&d);mul(&r->z,&t,&u);}
static void dadd(P*r,const P*p,const P*q,const P*d){F a,b,c,e;sub(&a,&p->x,&p->z);add(&b,&q->x,&q->z);mul(&a,&a,&b);add(&b,&p->x,&p->z);sub(&c,&q->x,&q->z);mul(&b,&b,&c);add(&e,&a,&b);mul(&e,&e,&e);sub(&c,&a,&b);mul(&c,&c,&c);F rx,rz;mul(&rx,&e,&d->z);mul(&rz,&c,&d->x);r->x=rx;r->z=rz;}
static void pmul(P*r,const P*p,u64 k){if(k==1){*r=*p;return;}P a=*p,b;dbl(&b,p);int i=62;while(!((k>>i)&1))i--;for(i--;i>=0;i--){P s;dadd(&s,&a,&b,p);if((k>>i)&1){a=s;P t;dbl(&t,&b);b=t;}else{b=s;P t;dbl(&t,&a);a=t;}}*r=a;}
static u64 pw5;
static void pminv(F*r,const F*a){ // inverse via extended binary gcd done w/ exponent not possible; use ext gcd
 // binary ext: u*a = x mod N
 F u={{0}},v={{0}},x=*a,y=N;u.v[0]=1;
 while(1){ if(iszero(&x)){break;}
  while(!(x.v[0]&1)){half(&x);u64 c=0;if(u.v[0]&1)c=addn(&u,&u,&N);half(&u);if(c)u.v[L-1]|=1ull<<63;}
  while(!(y.v[0]&1)){half(&y);u64 c=0;if(v.v[0]&1)c=addn(&v,&v,&N);half(&v);if(c)v.v[L-1]|=1ull<<63;}
  int c=cmp(&x,&y); if(c==0)break; if(c>0){subn(&x,&x,&y);sub(&u,&u,&v);}else{subn(&y,&y,&x);sub(&v,&v,&u);}}
 *r=v; // v*a = gcd
}
int main(int ac,char**av){
 parse(&N,av[1]);u64 B1=atoll(av[2]);u64 B2=B1*100;int curves=atoi(av[3]);srandom(atoi(av[4]));
 ninv=1;for(int i=0;i<6;i++)ninv*=2-N.v[0]*ninv;ninv=-ninv;
 F t={{0}};t.v[0]=1;while(cmp(&t,&N)>=0)subn(&t,&t,&N);
 for(int i=0;i<64*L*2;i++){add(&t,&t,&t);if(i==64*L-1)ONE=t;}R2=t;
 char*sv=calloc(B2+1,1);for(u64 i=2;i*i<=B2;i++)if(!sv[i])for(u64 j=i*i;j<=B2;j+=i)sv[j]=1;
 const int D=2310*2; 
 P*baby=malloc(sizeof(P)*(D/2+2));
 for(int c=0;c<curves;c++){
  u64 sg=((u64)random()<<20)^random();sg+=6; F s={{0}};s.v[0]=sg;mul(&s,&s,&R2);
  F f5={{0}},f4={{0}},f3={{0}};f5.v[0]=5;f4.v[0]=4;f3.v[0]=3;mul(&f5,&f5,&R2);mul(&f4,&f4,&R2);mul(&f3,&f3,&R2);
  F u,v;mul(&u,&s,&s);sub(&u,&u,&f5);mul(&v,&f4,&s);
  P q;mul(&q.x,&u,&u);mul(&q.x,&q.x,&u);mul(&q.z,&v,&v);mul(&q.z,&q.z,&v);
  F vu,num,den;sub(&vu,&v,&u);mul(&num,&vu,&vu);mul(&num,&num,&vu);F w;mul(&w,&f3,&u);add(&w,&w,&v);mul(&num,&num,&w);
  // (A+2)/4 = num/(16 u^3 v)
  mul(&den,&q.x,&v);mul(&den,&den,&f4);mul(&den,&den,&f4);
  F one={{0}};one.v[0]=1;F dn;mul(&dn,&den,&one);F iv;pminv(&iv,&dn);mul(&iv,&iv,&R2);mul(&a24,&num,&iv);
  for(u64 p=2;p<=B1;p++)if(!sv[p]){u64 k=p;while(k*p<=B1)k*=p;P r;pmul(&r,&q,k);q=r;}
  F g;F n0;mul(&n0,&q.z,&one);gcd(&g,&n0);
  int triv=1;for(int i=1;i<L;i++)if(g.v[i])triv=0;
  if(!(triv&&g.v[0]==1)&&cmp(&g,&N)){printf("FOUND1 ");pr(&g);return 0;}
  // stage 2
  P q2;dbl(&q2,&q);baby[1]=q;{P a=q,b;dadd(&b,&q2,&q,&q);baby[3]=b;for(int i=5;i<=D/2;i+=2)dadd(&baby[i],&baby[i-2],&q2,&baby[i-4]);}
  P big;pmul(&big,&q,D);u64 i0=B1/D;P g0,g1;if(i0<1)i0=1;pmul(&g0,&q,D*i0);pmul(&g1,&q,D*(i0+1));
  F acc=ONE;
  for(u64 i=i0;(i+1)*D<B2;i++){
   for(int j=1;j<=D/2;j+=2){u64 a=i*D+j,b=i*D-j; if((sv[a])&&(sv[b]))continue; if(j%3==0||j%5==0||j%7==0||j%11==0)continue;
    F x,y;mul(&x,&g0.x,&baby[j].z);mul(&y,&g0.z,&baby[j].x);sub(&x,&x,&y);mul(&acc,&acc,&x);}
   P n;dadd(&n,&g1,&big,&g0);g0=g1;g1=n;}
  mul(&n0,&acc,&one);gcd(&g,&n0);triv=1;for(int i=1;i<L;i++)if(g.v[i])triv=0;
  if(!(triv&&g.v[0]==1)&&cmp(&g,&N)){printf("FOUND2 ");pr(&g);return 0;}
 }
 printf("none\n");return 1;}
